import Verif.Model.Dispatch
/-! C95: operations that are both static and not static. -/
namespace Verif.Props
open Verif.Py Verif.Model Verif.Model.Dispatch

/-- None of the class bodies binds the name. -/
def Unbound (bodies : List Body) (name : String) : Prop := ∀ b ∈ bodies, b.lookup name = none

theorem find_skip (pre mro : List Body) (name : String) (h : Unbound pre name) : find (pre ++ mro) name = find mro name := by
  induction pre with
  | nil => rfl
  | cons b pre ih =>
    rw [List.cons_append, find, h b (by simp)]
    exact ih (fun x hx => h x (by simp [hx]))

/-- C95. For any class hierarchy: a name bound to `NotAlwaysStatic(b, s)` means, on an object, what `b` means on that object, and on the
class what `s` means on that class; `b` and `s` are looked up anew, from the class of the object. A value stored on the object under that
name hides it. -/
theorem C95_both (py3 : Bool) (own : List String) (mro : List Body) (name b s : String) (h : find mro name = some (.both b s)) (fuel : Nat) :
    (name ∉ own → onObject own mro name (fuel + 1) = onObject own mro b fuel) ∧
    (name ∈ own → onObject own mro name (fuel + 1) = .ok .stored) ∧
    onClass py3 mro name (fuel + 1) = onClass py3 mro s fuel := by
  refine ⟨fun hn => ?_, fun hn => ?_, ?_⟩
  · simp only [onObject, if_neg hn, h]
  · simp only [onObject, if_pos hn]
  · simp only [onClass, h]

/-- C95. So with a method `f` behind the first name and a static method (or function) `g` behind the second, calls on objects go to `f` with
the object, calls on the class to `g`. A missing one is an AttributeError for its kind of call only. -/
theorem C95_two_functions (py3 : Bool) (own : List String) (mro : List Body) (name b s : String) (h : find mro name = some (.both b s))
    (hn : name ∉ own) (hb : b ∉ own) (fuel : Nat) :
    (∀ f, find mro b = some (.fn f) → onObject own mro name (fuel + 2) = .ok (.method f)) ∧
    (find mro b = none → onObject own mro name (fuel + 2) = .error .attributeError) ∧
    (∀ g, find mro s = some (.static g) → onClass py3 mro name (fuel + 2) = .ok (.function g)) ∧
    (∀ g, find mro s = some (.fn g) → onClass py3 mro name (fuel + 2) = .ok (if py3 then .function g else .unbound g)) ∧
    (find mro s = none → onClass py3 mro name (fuel + 2) = .error .attributeError) := by
  obtain ⟨h1, _, h3⟩ := C95_both py3 own mro name b s h (fuel + 1)
  refine ⟨fun f hf => ?_, fun hf => ?_, fun g hg => ?_, fun g hg => ?_, fun hg => ?_⟩
  · rw [h1 hn]; simp only [onObject, if_neg hb, hf]
  · rw [h1 hn]; simp only [onObject, if_neg hb, hf]
  · rw [h3]; simp only [onClass, hg]
  · rw [h3]; simp only [onClass, hg]
  · rw [h3]; simp only [onClass, hg]

/-- C95. A subclass (any chain of subclasses) that redefines only the first of the two names changes the calls on its objects and not the
calls on the class. -/
theorem C95_override_bound (py3 : Bool) (own : List String) (pre mro : List Body) (name b s f g : String) (h : find mro name = some (.both b s))
    (hg : find mro s = some (.static g)) (hn : Unbound pre name) (hs : Unbound pre s) (hb : find pre b = some (.fn f))
    (ho : name ∉ own) (hob : b ∉ own) (fuel : Nat) :
    onObject own (pre ++ mro) name (fuel + 2) = .ok (.method f) ∧ onClass py3 (pre ++ mro) name (fuel + 2) = .ok (.function g) := by
  have h' : find (pre ++ mro) name = some (.both b s) := by rw [find_skip _ _ _ hn, h]
  have hs' : find (pre ++ mro) s = some (.static g) := by rw [find_skip _ _ _ hs, hg]
  have hb' : ∀ pre : List Body, find pre b = some (.fn f) → find (pre ++ mro) b = some (.fn f) := by
    intro pre
    induction pre with
    | nil => intro h; cases h
    | cons x pre ih =>
      intro h
      rw [List.cons_append]
      unfold find at h ⊢
      cases hx : x.lookup b with
      | some a => rw [hx] at h; exact h
      | none => rw [hx] at h; exact ih h
  have := C95_two_functions py3 own (pre ++ mro) name b s h' ho hob fuel
  exact ⟨this.1 f (hb' pre hb), this.2.2.1 g hs'⟩

/-- The five operations of tags that are both static and not static. -/
def tagOps : List String := ["toBytes", "size", "isConstructed", "tagClass", "tagNumber"]
/-- The three operations of constructed TLVs that are both. -/
def conOps : List String := ["append", "find", "findNext"]

/-- C95. Tags: on objects of both tag classes, and of any subclasses of them that leave these names alone, each of the five operations is
the bound function of the class `BERTag`, and on the classes the static one. -/
theorem C95_tags (py3 : Bool) (x : String) (hx : x ∈ tagOps) (pre : List Body) (hx' : Unbound pre x) (hb : Unbound pre ("_" ++ x ++ "Bound"))
    (hs : Unbound pre ("_" ++ x ++ "Static")) (base : Body) (hbase : base = primitiveBERTag ∨ base = constructedBERTag) (fuel : Nat) :
    onObject tagOwn (pre ++ [base, berTag]) x (fuel + 2) = .ok (.method ("BERTag._" ++ x ++ "Bound")) ∧
    onClass py3 (pre ++ [base, berTag]) x (fuel + 2) = .ok (.function ("BERTag._" ++ x ++ "Static")) := by
  have key : find [base, berTag] x = some (.both ("_" ++ x ++ "Bound") ("_" ++ x ++ "Static")) ∧
      find [base, berTag] ("_" ++ x ++ "Bound") = some (.fn ("BERTag._" ++ x ++ "Bound")) ∧
      find [base, berTag] ("_" ++ x ++ "Static") = some (.static ("BERTag._" ++ x ++ "Static")) ∧
      x ∉ tagOwn ∧ "_" ++ x ++ "Bound" ∉ tagOwn := by
    simp only [tagOps, List.mem_cons, List.not_mem_nil, or_false] at hx
    rcases hbase with rfl | rfl <;> rcases hx with rfl | rfl | rfl | rfl | rfl <;> decide
  obtain ⟨k1, k2, k3, k4, k5⟩ := key
  have := C95_two_functions py3 tagOwn (pre ++ [base, berTag]) x _ _ (by rw [find_skip _ _ _ hx', k1]) k4 k5 fuel
  exact ⟨this.1 _ (by rw [find_skip _ _ _ hb, k2]), this.2.2.1 _ (by rw [find_skip _ _ _ hs, k3])⟩

/-- C95. Constructed TLVs: the same for `append`, `find` and `findNext`, but for the static `findNext`, which is not marked as static: in
Python 2 it is an unbound method, which cannot be called on arrays (TypeError). On primitive TLVs, and on the base class, these three do not
exist, neither on objects nor on the class. -/
theorem C95_tlvs (py3 : Bool) (x : String) (hx : x ∈ conOps) (pre : List Body) (hx' : Unbound pre x) (hb : Unbound pre ("_" ++ x ++ "Bound"))
    (hs : Unbound pre ("_" ++ x ++ "Static")) (fuel : Nat) :
    onObject tlvOwn (pre ++ [constructedBERTLV, berTLV]) x (fuel + 2) = .ok (.method ("ConstructedBERTLV._" ++ x ++ "Bound")) ∧
    onClass py3 (pre ++ [constructedBERTLV, berTLV]) x (fuel + 2) =
      .ok (if x = "findNext" ∧ py3 = false then .unbound "ConstructedBERTLV._findNextStatic" else .function ("ConstructedBERTLV._" ++ x ++ "Static")) ∧
    onObject tlvOwn (pre ++ [primitiveBERTLV, berTLV]) x (fuel + 2) = .error .attributeError ∧
    onClass py3 (pre ++ [primitiveBERTLV, berTLV]) x (fuel + 2) = .error .attributeError ∧
    onClass py3 (pre ++ [berTLV]) x (fuel + 2) = .error .attributeError := by
  have key : find [constructedBERTLV, berTLV] x = some (.both ("_" ++ x ++ "Bound") ("_" ++ x ++ "Static")) ∧
      find [constructedBERTLV, berTLV] ("_" ++ x ++ "Bound") = some (.fn ("ConstructedBERTLV._" ++ x ++ "Bound")) ∧
      ((x ≠ "findNext" ∧ find [constructedBERTLV, berTLV] ("_" ++ x ++ "Static") = some (.static ("ConstructedBERTLV._" ++ x ++ "Static"))) ∨
       (x = "findNext" ∧ find [constructedBERTLV, berTLV] ("_" ++ x ++ "Static") = some (.fn "ConstructedBERTLV._findNextStatic"))) ∧
      x ∉ tlvOwn ∧ "_" ++ x ++ "Bound" ∉ tlvOwn ∧ find [primitiveBERTLV, berTLV] x = none ∧ find [berTLV] x = none := by
    simp only [conOps, List.mem_cons, List.not_mem_nil, or_false] at hx
    rcases hx with rfl | rfl | rfl <;> decide
  obtain ⟨k1, k2, k3, k4, k5, k6, k7⟩ := key
  have := C95_two_functions py3 tlvOwn (pre ++ [constructedBERTLV, berTLV]) x _ _ (by rw [find_skip _ _ _ hx', k1]) k4 k5 fuel
  refine ⟨this.1 _ (by rw [find_skip _ _ _ hb, k2]), ?_, ?_, ?_, ?_⟩
  · rcases k3 with ⟨hne, k3⟩ | ⟨he, k3⟩
    · rw [if_neg (fun h => hne h.1)]
      exact this.2.2.1 _ (by rw [find_skip _ _ _ hs]; exact k3)
    · rw [this.2.2.2.1 _ (by rw [find_skip _ _ _ hs]; exact k3), he]
      cases py3 <;> rfl
  · rw [show fuel + 2 = (fuel + 1) + 1 from rfl, onObject, if_neg k4, find_skip _ _ _ hx', k6]
  · rw [show fuel + 2 = (fuel + 1) + 1 from rfl, onClass, find_skip _ _ _ hx', k6]
  · rw [show fuel + 2 = (fuel + 1) + 1 from rfl, onClass, find_skip _ _ _ hx', k7]

/-- C95. `getLength` is the only operation of TLVs that is both on all TLV classes: the number of value bytes on an object, the static
function (which answers the size of the whole TLV, C70) on the classes. `toBytes` is a method only. -/
theorem C95_getLength (py3 : Bool) (pre : List Body) (base : List Body) (hbase : base = [] ∨ base = [primitiveBERTLV] ∨ base = [constructedBERTLV])
    (h1 : Unbound pre "getLength") (h2 : Unbound pre "_getLengthBound") (h3 : Unbound pre "_getLengthStatic") (h4 : Unbound pre "toBytes") (fuel : Nat) :
    onObject tlvOwn (pre ++ (base ++ [berTLV])) "getLength" (fuel + 2) = .ok (.method "BERTLV._getLengthBound") ∧
    onClass py3 (pre ++ (base ++ [berTLV])) "getLength" (fuel + 2) = .ok (.function "BERTLV._getLengthStatic") ∧
    onObject tlvOwn (pre ++ (base ++ [berTLV])) "toBytes" (fuel + 1) = .ok (.method "BERTLV._toBytesBound") ∧
    onClass py3 (pre ++ (base ++ [berTLV])) "toBytes" (fuel + 1) = .ok (if py3 then .function "BERTLV._toBytesBound" else .unbound "BERTLV._toBytesBound") := by
  have key : find (base ++ [berTLV]) "getLength" = some (.both "_getLengthBound" "_getLengthStatic") ∧
      find (base ++ [berTLV]) "_getLengthBound" = some (.fn "BERTLV._getLengthBound") ∧
      find (base ++ [berTLV]) "_getLengthStatic" = some (.static "BERTLV._getLengthStatic") ∧
      find (base ++ [berTLV]) "toBytes" = some (.fn "BERTLV._toBytesBound") := by
    rcases hbase with rfl | rfl | rfl <;> decide
  obtain ⟨k1, k2, k3, k4⟩ := key
  have := C95_two_functions py3 tlvOwn (pre ++ (base ++ [berTLV])) "getLength" _ _ (by rw [find_skip _ _ _ h1, k1]) (by decide) (by decide) fuel
  refine ⟨this.1 _ (by rw [find_skip _ _ _ h2, k2]), this.2.2.1 _ (by rw [find_skip _ _ _ h3, k3]), ?_, ?_⟩
  · rw [onObject, if_neg (by decide), find_skip _ _ _ h4, k4]
  · rw [onClass, find_skip _ _ _ h4, k4]

/-- A subclass with its own `_findBound`: `find` on its objects is the new one, on the class the old static one. -/
example : onObject tlvOwn ([[("_findBound", .fn "Mine._findBound")]] ++ [constructedBERTLV, berTLV]) "find" 2 = .ok (.method "Mine._findBound") ∧
    onClass true ([[("_findBound", .fn "Mine._findBound")]] ++ [constructedBERTLV, berTLV]) "find" 2 = .ok (.function "ConstructedBERTLV._findStatic") ∧
    Unbound [[("_findBound", .fn "Mine._findBound")]] "find" := ⟨by decide, by decide, by intro b hb; simp at hb; subst hb; rfl⟩

end Verif.Props
