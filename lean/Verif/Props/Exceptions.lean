import Verif.Model.Exceptions
/-! C86: exceptions and their reasons. -/
namespace Verif.Props
open Verif.Py Verif.Model

/-- The Java Card exception classes with a reason. -/
def cardClasses : List ExcClass := [.cardRuntime, .iso, .pin, .apdu, .system, .transaction, .service, .crypto, .tlv, .external]

/-- The other classes of the library. -/
def otherClasses : List ExcClass := [.runtimeException, .indexOutOfBounds, .arrayIndexOutOfBounds, .security, .nullPointer, .arithmetic, .classCast,
  .ioException, .remoteException, .cardException, .userException]

theorem hasReason_iff (c : ExcClass) : c.hasReason = true ↔ c ∈ cardClasses := by cases c <;> decide

/-- C86. `throwIt(reason)` on a Java Card exception class raises an instance of exactly this class whose getReason is the reason – any number.
On every other class of the library, UserException and CardException included, there is no throwIt: AttributeError. -/
theorem C86_throwIt (c : ExcClass) (r : Int) :
    (c ∈ cardClasses → (Exc.throwIt c r).cls = c ∧ (Exc.throwIt c r).getReason = .ok r) ∧
    (c ∈ otherClasses → (Exc.throwIt c r).cls = .attributeError ∧ ∀ h ∈ cardClasses ++ otherClasses, (Exc.throwIt c r).cls.caughtBy h = false) := by
  constructor
  · intro h
    have := (hasReason_iff c).2 h
    unfold Exc.throwIt Exc.new
    rw [if_pos this, this]
    exact ⟨rfl, rfl⟩
  · intro h
    have hc : c.hasReason = false := by
      cases hh : c.hasReason with
      | false => rfl
      | true => exact absurd ((hasReason_iff c).1 hh) (by revert h; cases c <;> decide)
    unfold Exc.throwIt
    rw [hc]
    refine ⟨rfl, ?_⟩
    show ∀ h ∈ cardClasses ++ otherClasses, ExcClass.caughtBy .attributeError h = false
    decide

/-- C86. What catches a thrown Java Card exception: a clause for its own class, CardRuntimeException, RuntimeException or Exception, and no other;
so of several clauses the first of these runs. -/
theorem C86_caught (c h : ExcClass) (hc : c ∈ cardClasses) (r : Int) :
    (Exc.throwIt c r).cls.caughtBy h = true ↔ h = c ∨ h = .cardRuntime ∨ h = .runtimeException ∨ h = .exception := by
  rw [((C86_throwIt c r).1 hc).1]
  revert hc
  cases c <;> cases h <;> decide

/-- C86. What each clause catches, over the classes of the library: `Exception` everything; `RuntimeException` the Java Card classes with a reason and
the seven of java.lang; `CardRuntimeException` the classes with a reason; `CardException` itself and UserException; `IOException` itself and
RemoteException; `IndexOutOfBoundsException` itself and ArrayIndexOutOfBoundsException; a clause for any other class only that class. -/
theorem C86_clauses (c h : ExcClass) (hc : c ∈ cardClasses ++ otherClasses) (hh : h ∈ .exception :: cardClasses ++ otherClasses) :
    c.caughtBy h = true ↔ h = .exception ∨ h = c ∨
      (h = .runtimeException ∧ (c ∈ cardClasses ∨ c ∈ [.indexOutOfBounds, .arrayIndexOutOfBounds, .security, .nullPointer, .arithmetic, .classCast])) ∨
      (h = .cardRuntime ∧ c ∈ cardClasses) ∨ (h = .cardException ∧ c = .userException) ∨ (h = .ioException ∧ c = .remoteException) ∨
      (h = .indexOutOfBounds ∧ c = .arrayIndexOutOfBounds) := by
  revert hc hh
  cases c <;> cases h <;> decide

/-- C86. The clause that runs is the first one that catches. -/
theorem C86_first_clause (x : Exc) (hs : List ExcClass) (n : Nat) :
    x.handler hs = some n ↔ ∃ h, hs[n]? = some h ∧ x.cls.caughtBy h = true ∧ ∀ i < n, ∀ g, hs[i]? = some g → x.cls.caughtBy g = false := by
  induction hs generalizing n with
  | nil => simp [Exc.handler]
  | cons a as ih =>
    unfold Exc.handler
    by_cases ha : x.cls.caughtBy a = true
    · rw [if_pos ha]
      constructor
      · intro h
        injection h with h
        subst h
        exact ⟨a, rfl, ha, fun i hi => absurd hi (by omega)⟩
      · rintro ⟨h, h1, h2, h3⟩
        cases n with
        | zero => rfl
        | succ n => rw [h3 0 (by omega) a rfl] at ha; cases ha
    · rw [if_neg ha]
      cases n with
      | zero =>
        constructor
        · intro h
          cases hh : Exc.handler x as with
          | none => rw [hh] at h; cases h
          | some k => rw [hh] at h; simp at h
        · rintro ⟨h, h1, h2, h3⟩
          simp only [List.getElem?_cons_zero, Option.some.injEq] at h1
          subst h1
          exact absurd h2 ha
      | succ n =>
        have : (Exc.handler x as).map (· + 1) = some (n + 1) ↔ Exc.handler x as = some n := by
          cases Exc.handler x as <;> simp
        rw [this, ih]
        constructor
        · rintro ⟨h, h1, h2, h3⟩
          refine ⟨h, h1, h2, fun i hi g hg => ?_⟩
          cases i with
          | zero =>
            simp only [List.getElem?_cons_zero, Option.some.injEq] at hg
            subst hg
            simpa using ha
          | succ i => exact h3 i (by omega) g hg
        · rintro ⟨h, h1, h2, h3⟩
          exact ⟨h, h1, h2, fun i hi g hg => h3 (i + 1) (by omega) g hg⟩

/-- The last reason set on object `i`. -/
def lastReason (i : Nat) (r0 : Int) : List (Nat × Int) → Int
  | [] => r0
  | (j, r) :: rest => lastReason i (if j = i then r else r0) rest

theorem setReasons_length (xs : List Exc) (ops : List (Nat × Int)) : (Exc.setReasons xs ops).length = xs.length := by
  induction ops generalizing xs with
  | nil => rfl
  | cons op ops ih =>
    obtain ⟨j, r⟩ := op
    rw [Exc.setReasons, ih]
    split
    · rfl
    · split
      · rfl
      · simp

/-- C86. Any number of Java Card exception objects, any history of setReason calls on them: each keeps its class, and its getReason is the
last reason set on it, or the one it was made with. -/
theorem C86_reasons (xs : List (ExcClass × Int)) (hc : ∀ p ∈ xs, p.1 ∈ cardClasses) (ops : List (Nat × Int)) (i : Nat) (p : ExcClass × Int) (hi : xs[i]? = some p) :
    ∃ x, (Exc.setReasons (xs.map fun p => Exc.throwIt p.1 p.2) ops)[i]? = some x ∧ x.cls = p.1 ∧ x.getReason = .ok (lastReason i p.2 ops) := by
  have gen : ∀ (ops : List (Nat × Int)) (ys : List Exc), (∀ y ∈ ys, y.cls ∈ cardClasses) → ∀ y r, ys[i]? = some y → y.reason = some r →
      ∃ x, (Exc.setReasons ys ops)[i]? = some x ∧ x.cls = y.cls ∧ x.reason = some (lastReason i r ops) := by
    intro ops
    induction ops with
    | nil => intro ys _ y r hy hr; exact ⟨y, hy, rfl, hr⟩
    | cons op ops ih =>
      obtain ⟨j, v⟩ := op
      intro ys hys y r hy hr
      rw [Exc.setReasons, lastReason]
      cases hj : ys[j]? with
      | none =>
        have hne : j ≠ i := by intro e; rw [e, hy] at hj; cases hj
        rw [if_neg hne]
        exact ih ys hys y r hy hr
      | some z =>
        have hz : z.cls ∈ cardClasses := hys z (List.mem_of_getElem? hj)
        have hs : z.setReason v = .ok ⟨z.cls, some v⟩ := by
          unfold Exc.setReason
          rw [if_pos ((hasReason_iff _).2 hz)]
        simp only [hs]
        have hys' : ∀ w ∈ ys.set j ⟨z.cls, some v⟩, w.cls ∈ cardClasses := by
          intro w hw
          rcases List.mem_or_eq_of_mem_set hw with h | h
          · exact hys w h
          · rw [h]; exact hz
        by_cases he : j = i
        · subst he
          rw [hy] at hj
          injection hj with hj
          subst hj
          have hlt : j < ys.length := by
            rcases Nat.lt_or_ge j ys.length with h | h
            · exact h
            · rw [List.getElem?_eq_none h] at hy; cases hy
          rw [if_pos rfl]
          exact ih _ hys' ⟨y.cls, some v⟩ v (by rw [List.getElem?_set_self hlt]) rfl
        · rw [if_neg he]
          exact ih _ hys' y r (by rw [List.getElem?_set_ne he]; exact hy) hr
  have hp := hc p (List.mem_of_getElem? hi)
  obtain ⟨t1, t2⟩ := (C86_throwIt p.1 p.2).1 hp
  have hr : (Exc.throwIt p.1 p.2).reason = some p.2 := by
    unfold Exc.throwIt Exc.new
    rw [if_pos ((hasReason_iff _).2 hp), if_pos ((hasReason_iff _).2 hp)]
  obtain ⟨x, x1, x2, x3⟩ := gen ops (xs.map fun p => Exc.throwIt p.1 p.2) (by
    intro y hy
    obtain ⟨q, hq, rfl⟩ := List.mem_map.1 hy
    rw [((C86_throwIt q.1 q.2).1 (hc q hq)).1]
    exact hc q hq) (Exc.throwIt p.1 p.2) p.2 (by rw [List.getElem?_map, hi]; rfl) hr
  refine ⟨x, x1, by rw [x2, t1], ?_⟩
  unfold Exc.getReason
  rw [x3]

/-- C86. Which errors of the library an applet's `except CardRuntimeException`, `except RuntimeException` and `except IndexOutOfBoundsException`
clauses catch: the first those with a reason, the second the Java exceptions too, the third ArrayIndexOutOfBoundsException. None of them
catches a Python error (IndexError, NameError, AttributeError, TypeError, ValueError, ...) that escapes the library. -/
theorem C86_escaping (e : Err) :
    ((Exc.ofErr e).cls.caughtBy .cardRuntime = true ↔ ∃ r, (Exc.ofErr e).getReason = .ok r) ∧
    ((Exc.ofErr e).cls.caughtBy .runtimeException = true ↔ e.isJavaCard = true) ∧
    ((Exc.ofErr e).cls.caughtBy .indexOutOfBounds = true ↔ e = .arrayIndexOutOfBounds) ∧
    (Exc.ofErr e).cls.caughtBy .exception = true := by
  cases e <;> (refine ⟨?_, ?_, ?_, ?_⟩ <;> simp [Exc.ofErr, Exc.new, Exc.getReason, ExcClass.caughtBy, ExcClass.hasReason, ExcClass.mro, ExcClass.mroF,
    ExcClass.base, Err.isJavaCard])

/-- C86. Which clause of a Java Card class with a reason catches what the library raises, with the reason it then reads. -/
theorem C86_raised (e : Err) (r : Int) :
    (((Exc.ofErr e).cls.caughtBy .apdu = true ∧ (Exc.ofErr e).getReason = .ok r) ↔ e = .apdu r) ∧
    (((Exc.ofErr e).cls.caughtBy .iso = true ∧ (Exc.ofErr e).getReason = .ok r) ↔ e = .iso r) ∧
    (((Exc.ofErr e).cls.caughtBy .pin = true ∧ (Exc.ofErr e).getReason = .ok r) ↔ e = .pin r) ∧
    (((Exc.ofErr e).cls.caughtBy .system = true ∧ (Exc.ofErr e).getReason = .ok r) ↔ e = .system r) ∧
    (((Exc.ofErr e).cls.caughtBy .transaction = true ∧ (Exc.ofErr e).getReason = .ok r) ↔ e = .transaction r) ∧
    (((Exc.ofErr e).cls.caughtBy .crypto = true ∧ (Exc.ofErr e).getReason = .ok r) ↔ e = .crypto r) ∧
    (((Exc.ofErr e).cls.caughtBy .tlv = true ∧ (Exc.ofErr e).getReason = .ok r) ↔ e = .tlv r) ∧
    (((Exc.ofErr e).cls.caughtBy .service = true ∧ (Exc.ofErr e).getReason = .ok r) ↔ e = .service r) ∧
    (((Exc.ofErr e).cls.caughtBy .external = true ∧ (Exc.ofErr e).getReason = .ok r) ↔ e = .external r) := by
  refine ⟨?_, ?_, ?_, ?_, ?_, ?_, ?_, ?_, ?_⟩ <;> cases e <;>
    simp [Exc.ofErr, Exc.new, Exc.getReason, ExcClass.hasReason, ExcClass.caughtBy, ExcClass.mro, ExcClass.mroF, ExcClass.base]

/-- C86. Memory.getMemoryAccessInstance raises ExternalException(NO_SUCH_SUBSYSTEM) whatever it is asked for. -/
theorem C86_memory (t : Int) (size : List Int) (off : Int) : getMemoryAccessInstance t size off = .error (.external 1) := rfl

example : (Exc.throwIt .iso 0x6D00).handler [.userException, .crypto, .runtimeException, .iso] = some 2 := by decide
example : (Exc.ofErr .indexError).handler [.indexOutOfBounds, .arrayIndexOutOfBounds, .cardRuntime, .runtimeException] = none := by decide

end Verif.Props
