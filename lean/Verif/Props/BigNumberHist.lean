import Verif.Props.BigNumber
/-! C90: histories of calls on a BigNumber. -/
namespace Verif.Props
open Verif.Py Verif.Model Verif.Spec

/-- Which call. -/
inductive NumKind where
  | init | add | subtract | multiply
  deriving DecidableEq, Repr

/-- A call `init`/`add`/`subtract`/`multiply` `(array, offset, length, format)`; `none` is Python's None. -/
structure NumCall where
  kind : NumKind
  arr : Option (List Int)
  off : Int
  len : Int
  fmt : Int

/-- Perform the call: outcome and the number afterwards. -/
def numStep (x : BigNumber) (c : NumCall) : Res BigNumber Unit :=
  match c.kind with
  | .init => x.init c.arr c.off c.len c.fmt
  | .add => x.add c.arr c.off c.len c.fmt
  | .subtract => x.subtract c.arr c.off c.len c.fmt
  | .multiply => x.multiply c.arr c.off c.len c.fmt

/-- The outcomes of a history of calls, and the number afterwards; a call that raises does not stop the history (its exception is caught). -/
def numRun (x : BigNumber) : List NumCall → List (Except Err Unit) × BigNumber
  | [] => ([], x)
  | c :: cs => let r := numStep x c; let q := numRun r.2 cs; (r.1 :: q.1, q.2)

/-- The arguments of the call denote the number `o`: a non-empty range inside the array that spells `o` in the given format. -/
def Denotes (c : NumCall) (o : Nat) : Prop :=
  ∃ (arr : List Int) (off n : Nat), c.arr = some arr ∧ c.off = off ∧ c.len = n ∧ 0 < n ∧ off + n ≤ arr.length ∧
    ((c.fmt = HEX ∧ ∃ ds, SpellsAll (range arr off n) ds ∧ positional 256 ds = o) ∨
     (c.fmt = BCD ∧ ∃ ds, SpellsBCD (range arr off n) ds ∧ positional 10 ds = o))

/-- What a history of calls ought to do to the number (`none`: never initialised) and which calls succeed: integer arithmetic without bound;
calls with length 0, without array or with an unknown format are refused and change nothing; so is arithmetic before `init`. -/
inductive Computes : Option Int → List NumCall → List Bool → Option Int → Prop
  | done {s} : Computes s [] [] s
  | init {s c o cs rs s'} : c.kind = .init → Denotes c o → Computes (some (o : Int)) cs rs s' → Computes s (c :: cs) (true :: rs) s'
  | add {v c o cs rs s'} : c.kind = .add → Denotes c o → Computes (some (v + o)) cs rs s' → Computes (some v) (c :: cs) (true :: rs) s'
  | subtract {v c o cs rs s'} : c.kind = .subtract → Denotes c o → Computes (some (v - o)) cs rs s' → Computes (some v) (c :: cs) (true :: rs) s'
  | multiply {v c o cs rs s'} : c.kind = .multiply → Denotes c o → Computes (some (v * o)) cs rs s' → Computes (some v) (c :: cs) (true :: rs) s'
  | refused {s c cs rs s'} : c.len = 0 ∨ c.arr = none ∨ (c.fmt ≠ HEX ∧ c.fmt ≠ BCD) → Computes s cs rs s' → Computes s (c :: cs) (false :: rs) s'
  | early {c o cs rs s'} : c.kind ≠ .init → Denotes c o → Computes none cs rs s' → Computes none (c :: cs) (false :: rs) s'

def isOk {α} : Except Err α → Bool
  | .ok _ => true
  | .error _ => false

theorem denotes_init {c : NumCall} {o : Nat} (h : Denotes c o) (x : BigNumber) :
    x.init c.arr c.off c.len c.fmt = (.ok (), { x with value := some (o : Int) }) := by
  obtain ⟨arr, off, n, h1, h2, h3, h4, h5, h6⟩ := h
  rw [h1, h2, h3]
  rcases h6 with ⟨hf, ds, hs, rfl⟩ | ⟨hf, ds, hs, rfl⟩ <;> rw [hf]
  · exact C31_hex x arr off n ds h4 h5 hs
  · exact C31_bcd x arr off n ds h4 h5 hs

theorem denotes_arith {c : NumCall} {o : Nat} (h : Denotes c o) (x : BigNumber) (v : Int) (hx : x.value = some v) :
    x.add c.arr c.off c.len c.fmt = (.ok (), { x with value := some (v + o) }) ∧
    x.subtract c.arr c.off c.len c.fmt = (.ok (), { x with value := some (v - o) }) ∧
    x.multiply c.arr c.off c.len c.fmt = (.ok (), { x with value := some (v * o) }) := by
  obtain ⟨arr, off, n, h1, h2, h3, h4, h5, h6⟩ := h
  rw [h1, h2, h3]
  exact C33_exact x v hx arr off n c.fmt o h4 h5 h6

theorem refused_step {c : NumCall} (h : c.len = 0 ∨ c.arr = none ∨ (c.fmt ≠ HEX ∧ c.fmt ≠ BCD)) (x : BigNumber) :
    ∃ e, numStep x c = (.error e, x) := by
  have hi : ∀ y : BigNumber, ∃ e, y.init c.arr c.off c.len c.fmt = (.error e, y) := by
    intro y
    by_cases h0 : c.len = 0
    · rw [h0]; exact ⟨_, C31_length_zero y c.arr c.off c.fmt⟩
    · cases ha : c.arr with
      | none => exact ⟨_, C31_null y c.off c.len c.fmt h0⟩
      | some arr =>
        rcases h with h | h | ⟨h1, h2⟩
        · exact absurd h h0
        · rw [ha] at h; cases h
        · exact ⟨_, C31_unknown_format y arr c.off c.len c.fmt h2 h1⟩
  obtain ⟨e, he⟩ := hi x
  obtain ⟨b1, b2, b3⟩ := C33_bad_operand x x c.arr c.off c.len c.fmt e (by rw [he])
  refine ⟨e, ?_⟩
  unfold numStep
  cases c.kind
  · exact he
  · exact b1
  · exact b2
  · exact b3

/-- C90. Histories of any length: the number is always exactly what integer arithmetic says, refused calls change nothing, and the calls that
succeed are exactly those that should. -/
theorem C90_history (s s' : Option Int) (cs : List NumCall) (rs : List Bool) (h : Computes s cs rs s') (x : BigNumber) (hx : x.value = s) :
    (numRun x cs).2.value = s' ∧ (numRun x cs).2.maxBytes = x.maxBytes ∧ (numRun x cs).1.map isOk = rs := by
  induction h generalizing x with
  | done => exact ⟨hx, rfl, rfl⟩
  | @init s c o cs rs s' hk hd _ ih =>
    have e : numStep x c = (.ok (), { x with value := some (o : Int) }) := by simp only [numStep, hk]; exact denotes_init hd x
    simp only [numRun, e]
    obtain ⟨i1, i2, i3⟩ := ih { x with value := some (o : Int) } rfl
    exact ⟨i1, i2, by simp [i3, isOk]⟩
  | @add v c o cs rs s' hk hd _ ih =>
    have e : numStep x c = (.ok (), { x with value := some (v + o : Int) }) := by simp only [numStep, hk]; exact (denotes_arith hd x v hx).1
    simp only [numRun, e]
    obtain ⟨i1, i2, i3⟩ := ih { x with value := some (v + o : Int) } rfl
    exact ⟨i1, i2, by simp [i3, isOk]⟩
  | @subtract v c o cs rs s' hk hd _ ih =>
    have e : numStep x c = (.ok (), { x with value := some (v - o : Int) }) := by simp only [numStep, hk]; exact (denotes_arith hd x v hx).2.1
    simp only [numRun, e]
    obtain ⟨i1, i2, i3⟩ := ih { x with value := some (v - o : Int) } rfl
    exact ⟨i1, i2, by simp [i3, isOk]⟩
  | @multiply v c o cs rs s' hk hd _ ih =>
    have e : numStep x c = (.ok (), { x with value := some (v * o : Int) }) := by simp only [numStep, hk]; exact (denotes_arith hd x v hx).2.2
    simp only [numRun, e]
    obtain ⟨i1, i2, i3⟩ := ih { x with value := some (v * o : Int) } rfl
    exact ⟨i1, i2, by simp [i3, isOk]⟩
  | @refused s c cs rs s' hr _ ih =>
    obtain ⟨e, he⟩ := refused_step hr x
    simp only [numRun, he]
    obtain ⟨i1, i2, i3⟩ := ih x hx
    exact ⟨i1, i2, by simp [i3, isOk]⟩
  | @early c o cs rs s' hk hd _ ih =>
    have hop : BigNumber.operand c.arr c.off c.len c.fmt = .ok (o : Int) := by
      unfold BigNumber.operand
      rw [denotes_init hd]
    have e : numStep x c = (.error .typeError, x) := by
      unfold numStep
      cases hkk : c.kind
      · exact absurd hkk hk
      all_goals simp only [BigNumber.add, BigNumber.subtract, BigNumber.multiply, BigNumber.combine, hop, hx]
    simp only [numRun, e]
    obtain ⟨i1, i2, i3⟩ := ih x hx
    exact ⟨i1, i2, by simp [i3, isOk]⟩

/-- C90. What is written out at the end: a history that ends in the non-negative number `v` writes exactly `v` in hexadecimal into any range
that has room for it. -/
theorem C90_written (cs : List NumCall) (rs : List Bool) (v : Nat) (m : Option Int) (h : Computes none cs rs (some (v : Int)))
    (buf : List Int) (off n : Nat) (hv : v < 256 ^ n) (hr : off + n ≤ buf.length) :
    ∃ buf', (numRun ⟨m, none⟩ cs).2.toBytes buf off n HEX = (.ok (), buf') ∧ WritesNumber 256 SpellsAll buf buf' off n v := by
  obtain ⟨h1, _, _⟩ := C90_history none _ cs rs h ⟨m, none⟩ rfl
  exact C32_hex _ v h1 buf off n hv hr

/-- C90, what the code does not do: the maximum size given to the constructor is never enforced. Whatever the calls, an object made for any
maximum behaves exactly like one made for another. -/
theorem C90_max_bytes_ignored (m m' : Option Int) (v : Option Int) (cs : List NumCall) :
    (numRun ⟨m, v⟩ cs).1 = (numRun ⟨m', v⟩ cs).1 ∧ (numRun ⟨m, v⟩ cs).2.value = (numRun ⟨m', v⟩ cs).2.value ∧
    ∀ buf off n fmt, (numRun ⟨m, v⟩ cs).2.toBytes buf off n fmt = (numRun ⟨m', v⟩ cs).2.toBytes buf off n fmt := by
  have step : ∀ (v : Option Int) (c : NumCall), ∃ r w, numStep ⟨m, v⟩ c = (r, ⟨m, w⟩) ∧ numStep ⟨m', v⟩ c = (r, ⟨m', w⟩) := by
    intro v c
    have hi : ∃ r w, BigNumber.init ⟨m, v⟩ c.arr c.off c.len c.fmt = (r, ⟨m, w⟩) ∧ BigNumber.init ⟨m', v⟩ c.arr c.off c.len c.fmt = (r, ⟨m', w⟩) := by
      unfold BigNumber.init
      by_cases h0 : c.len = 0
      · rw [if_pos h0, if_pos h0]; exact ⟨_, _, rfl, rfl⟩
      · rw [if_neg h0, if_neg h0]
        cases c.arr with
        | none => exact ⟨_, _, rfl, rfl⟩
        | some arr =>
          simp only
          split
          · exact ⟨_, _, rfl, rfl⟩
          · split <;> exact ⟨_, _, rfl, rfl⟩
    have hc : ∀ op o, ∃ r w, BigNumber.combine op ⟨m, v⟩ o = (r, ⟨m, w⟩) ∧ BigNumber.combine op ⟨m', v⟩ o = (r, ⟨m', w⟩) := by
      intro op o
      unfold BigNumber.combine
      cases o with
      | error e => exact ⟨_, _, rfl, rfl⟩
      | ok k => cases v <;> exact ⟨_, _, rfl, rfl⟩
    unfold numStep
    cases c.kind
    · exact hi
    · exact hc _ _
    · exact hc _ _
    · exact hc _ _
  have key : (numRun ⟨m, v⟩ cs).1 = (numRun ⟨m', v⟩ cs).1 ∧ (numRun ⟨m, v⟩ cs).2.value = (numRun ⟨m', v⟩ cs).2.value := by
    induction cs generalizing v with
    | nil => exact ⟨rfl, rfl⟩
    | cons c cs ih =>
      obtain ⟨r, w, e1, e2⟩ := step v c
      simp only [numRun, e1, e2]
      obtain ⟨i1, i2⟩ := ih w
      exact ⟨by rw [i1], i2⟩
  refine ⟨key.1, key.2, ?_⟩
  intro buf off n fmt
  unfold BigNumber.toBytes
  rw [key.2]

/-- So a counter made for one byte counts to 256. -/
example : Computes none [⟨.init, some [-1], 0, 1, HEX⟩, ⟨.add, none, 0, 1, HEX⟩, ⟨.add, some [0, 0x01], 1, 1, BCD⟩] [true, false, true] (some 256) ∧
    (numRun ⟨some 1, none⟩ [⟨.init, some [-1], 0, 1, HEX⟩, ⟨.add, none, 0, 1, HEX⟩, ⟨.add, some [0, 0x01], 1, 1, BCD⟩]).2.value = some 256 := by
  have h : Computes none [⟨.init, some [-1], 0, 1, HEX⟩, ⟨.add, none, 0, 1, HEX⟩, ⟨.add, some [0, 0x01], 1, 1, BCD⟩] [true, false, true] (some (((255 : Nat) : Int) + ((1 : Nat) : Int))) :=
    .init rfl ⟨[-1], 0, 1, rfl, rfl, rfl, by decide, by decide, .inl ⟨rfl, [255], by simp [SpellsAll, Spells, range], rfl⟩⟩
      (.refused (.inr (.inl rfl))
        (.add rfl ⟨[0, 0x01], 1, 1, rfl, rfl, rfl, by decide, by decide, .inr ⟨rfl, [0, 1], by simp [SpellsBCD, Spells, range], rfl⟩⟩ .done))
  exact ⟨h, (C90_history _ _ _ _ h ⟨some 1, none⟩ rfl).1⟩

end Verif.Props
