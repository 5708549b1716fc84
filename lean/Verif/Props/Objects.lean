import Verif.Model.Objects
import Verif.Spec.Basic
import Verif.Props.BigNumber
/-! C128: AIDs and tags under Python's own operations (`==`, `!=`, `in`, list methods, dictionary keys), and uninitialised numbers, under Python 2 and 3. -/
namespace Verif.Props
open Verif.Py Verif.Model Verif.Model.Objects Verif.Spec

/-- `eq` compares what `view` shows of two objects. -/
def Compares {α γ : Type} (eq : α → α → Bool) (view : α → γ) : Prop := ∀ a b, eq a b = true ↔ view a = view b

/-- **C128** (AIDs). `__eq__` of an AID compares the bytes; `__eq__` of a tag the class, whether it is constructed, and the number (not the size). -/
theorem C128_views : Compares AID.eq (fun a => a.aid) ∧ Compares BERTag.eq (fun t => (t.tagClass, t.tagConstr, t.tagNumber)) := by
  refine ⟨fun a b => by simp [AID.eq], fun a b => by simp [BERTag.eq, and_assoc]⟩

variable {α γ : Type} {eq : α → α → Bool} {view : α → γ}

/-- **C128** (`==` and `!=`). Two objects are `==` exactly when they show the same. Under Python 3 `!=` is the contrary; under Python 2 two objects are `!=` exactly when
they are not one object, whatever they show: two objects that show the same are then `==` and `!=` at once. -/
theorem C128_eq_ne (hc : Compares eq view) (h : Nat → α) (a b : Nat) :
    (∃ t, eqOp eq h (some a) (some b) = .ok t ∧ (t = true ↔ view (h a) = view (h b))) ∧
    (∃ t, neOp true eq h (some a) (some b) = .ok t ∧ (t = true ↔ view (h a) ≠ view (h b))) ∧
    (∃ t, neOp false eq h (some a) (some b) = .ok t ∧ (t = true ↔ a ≠ b)) := by
  refine ⟨⟨_, rfl, hc _ _⟩, ⟨_, rfl, ?_⟩, ⟨_, rfl, ?_⟩⟩
  · have := hc (h a) (h b)
    rw [Ne, ← this]; cases eq (h a) (h b) <;> simp
  · simp

/-- **C128** (`None`). Comparing an object with `None` by `==`, on either side, raises AttributeError, and so does `!=` under Python 3; under Python 2 an object is `!=` `None`.
`None` is `==` `None`. -/
theorem C128_none (eq : α → α → Bool) (h : Nat → α) (a : Nat) :
    eqOp eq h (some a) none = .error .attributeError ∧ eqOp eq h none (some a) = .error .attributeError ∧
    neOp true eq h (some a) none = .error .attributeError ∧ neOp true eq h none (some a) = .error .attributeError ∧
    neOp false eq h (some a) none = .ok true ∧ neOp false eq h none (some a) = .ok true ∧
    eqOp eq h none none = .ok true ∧ ∀ py3, neOp py3 eq h none none = .ok false := by
  refine ⟨rfl, rfl, rfl, rfl, ?_, ?_, rfl, ?_⟩
  · simp [neOp]
  · simp [neOp]
  · intro py3; cases py3 <;> simp [neOp, eqOp, Except.map]

theorem cellEq_some (hc : Compares eq view) (h : Nat → α) (x y : Nat) : ∃ t, cellEq eq h (some x) (some y) = .ok t ∧ (t = true ↔ view (h x) = view (h y)) := by
  unfold cellEq
  by_cases e : (some x : Ref) = some y
  · rw [if_pos e]; injection e with e; subst e; exact ⟨true, rfl, by simp⟩
  · rw [if_neg e]; exact ⟨_, rfl, hc _ _⟩

/-- **C128** (`in`). `x in l`, where `None` comes after the objects `l`, if at all: true when an object of `l` shows the same as `x`; else false, or AttributeError when `None`
follows. -/
theorem C128_in (hc : Compares eq view) (h : Nat → α) (x : Nat) (l : List Nat) (rest : List Ref) :
    ((∃ y ∈ l, view (h x) = view (h y)) → ∀ rest, isIn eq h (some x) (l.map some ++ rest) = .ok true) ∧
    ((∀ y ∈ l, view (h x) ≠ view (h y)) → isIn eq h (some x) (l.map some) = .ok false ∧ isIn eq h (some x) (l.map some ++ none :: rest) = .error .attributeError) := by
  induction l with
  | nil => simp [isIn, cellEq, eqOp]
  | cons y l ih =>
    obtain ⟨t, e, ht⟩ := cellEq_some hc h x y
    simp only [List.map_cons, List.cons_append, isIn, e]
    cases t with
    | true =>
      have hv := ht.mp rfl
      refine ⟨fun _ _ => rfl, fun hn => absurd hv (hn y (by simp))⟩
    | false =>
      have hv : view (h x) ≠ view (h y) := fun q => by simpa using ht.mpr q
      refine ⟨?_, fun hn => ih.2 fun z hz => hn z (by simp [hz])⟩
      rintro ⟨z, hz, q⟩ rest
      rcases List.mem_cons.mp hz with rfl | hz
      · exact absurd q hv
      · exact ih.1 ⟨z, hz, q⟩ rest

theorem indexFrom_spec (hc : Compares eq view) (h : Nat → α) (x : Nat) (pre : List Nat) (hpre : ∀ y ∈ pre, view (h x) ≠ view (h y)) (i : Nat) (rest : List Ref) :
    indexFrom eq h (some x) i (pre.map some ++ rest) = indexFrom eq h (some x) (i + pre.length) rest := by
  induction pre generalizing i with
  | nil => simp
  | cons y l ih =>
    obtain ⟨t, e, ht⟩ := cellEq_some hc h x y
    have : t = false := by
      cases t with
      | false => rfl
      | true => exact absurd (ht.mp rfl) (hpre y (by simp))
    subst this
    simp only [List.map_cons, List.cons_append, indexFrom, e]
    rw [ih (fun z hz => hpre z (by simp [hz])), List.length_cons]
    congr 1; omega

/-- **C128** (`index`, `remove`). `l.index(x)` gives the place of the first object that shows the same as `x`, and `l.remove(x)` removes that object, which need not be `x`; both raise
ValueError, and leave the list as it is, when no object of the list does. -/
theorem C128_index (hc : Compares eq view) (h : Nat → α) (x : Nat) :
    (∀ (pre : List Nat) (y : Nat) (rest : List Ref), (∀ z ∈ pre, view (h x) ≠ view (h z)) → view (h x) = view (h y) →
      indexFrom eq h (some x) 0 (pre.map some ++ some y :: rest) = .ok pre.length ∧
      remove eq h (some x) (pre.map some ++ some y :: rest) = (.ok (), pre.map some ++ rest)) ∧
    (∀ l : List Nat, (∀ z ∈ l, view (h x) ≠ view (h z)) →
      indexFrom eq h (some x) 0 (l.map some) = .error .valueError ∧ remove eq h (some x) (l.map some) = (.error .valueError, l.map some)) := by
  constructor
  · intro pre y rest hpre hy
    have e1 : indexFrom eq h (some x) 0 (pre.map some ++ some y :: rest) = .ok pre.length := by
      rw [indexFrom_spec hc h x pre hpre]
      obtain ⟨t, e, ht⟩ := cellEq_some hc h x y
      rw [ht.mpr hy] at e
      simp only [indexFrom, e, Nat.zero_add]
    refine ⟨e1, ?_⟩
    simp only [remove, e1]
    rw [List.eraseIdx_append_of_length_le (by simp)]
    simp
  · intro l hl
    have e1 : indexFrom eq h (some x) 0 (l.map some) = .error .valueError := by
      have := indexFrom_spec hc h x l hl 0 []
      rw [List.append_nil] at this
      rw [this]; rfl
    exact ⟨e1, by simp only [remove, e1]⟩

/-- **C128** (`count`). `l.count(x)` counts the objects that show the same as `x`. -/
theorem C128_count (hc : Compares eq view) [DecidableEq γ] (h : Nat → α) (x : Nat) (l : List Nat) :
    count eq h (some x) (l.map some) = .ok (l.countP fun y => decide (view (h x) = view (h y))) := by
  induction l with
  | nil => rfl
  | cons y l ih =>
    obtain ⟨t, e, ht⟩ := cellEq_some hc h x y
    simp only [List.map_cons, count, e, ih, Except.map, List.countP_cons]
    cases t with
    | true => simp [ht.mp rfl]
    | false =>
      have : view (h x) ≠ view (h y) := fun q => by simpa using ht.mpr q
      simp [this]

/-- What was last stored under the object `x` itself, unless it was deleted since. -/
def storedUnder {α β : Type} (x : Nat) : Option β → List (DictOp α β) → Option β
  | s, [] => s
  | s, .put y v :: ops => storedUnder x (if y = x then some v else s) ops
  | s, .del y :: ops => storedUnder x (if y = x then none else s) ops
  | s, .other _ :: ops => storedUnder x s ops

/-- **C128** (dictionaries, Python 3). No object can be a key: every operation raises TypeError and changes nothing. -/
theorem C128_dict_py3 {β : Type} (eq : α → α → Bool) (h : Nat → α) (hash : Nat → Int) (d : Dict β) (x : Nat) (v : β) :
    putItem true eq h hash d x v = (.error .typeError, d) ∧ delItem true eq h hash d x = (.error .typeError, d) ∧
    getItem true eq h hash d x = .error .typeError ∧ hasKey true eq h hash d x = .error .typeError := ⟨rfl, rfl, rfl, rfl⟩

/-- Every entry stores the hash value of its key, and stands for one key. -/
structure GoodDict {β : Type} (hash : Nat → Int) (d : Dict β) : Prop where
  hashes : ∀ e ∈ d, e.1 = hash e.2.1
  once : (d.map (fun e => e.2.1)).Nodup

theorem matches_iff {β : Type} (h : Nat → α) {hash : Nat → Int} (hi : ∀ a b, hash a = hash b → a = b) {d : Dict β} (g : GoodDict hash d) (x : Nat) {e : Int × Nat × β} (he : e ∈ d) :
    matchesKey eq h hash x e = decide (e.2.1 = x) := by
  unfold matchesKey
  rw [g.hashes e he]
  by_cases q : e.2.1 = x
  · simp [q]
  · have : hash e.2.1 ≠ hash x := fun t => q (hi _ _ t)
    simp [q, this]

theorem goodDict_put {β : Type} (h : Nat → α) {hash : Nat → Int} (hi : ∀ a b, hash a = hash b → a = b) {d : Dict β} (g : GoodDict hash d) (x : Nat) (v : β) :
    GoodDict hash (putItem false eq h hash d x v).2 ∧ ∀ y, ((putItem false eq h hash d x v).2.find? (fun e => decide (e.2.1 = y))).map (fun e => e.2.2) =
      if x = y then some v else (d.find? (fun e => decide (e.2.1 = y))).map (fun e => e.2.2) := by
  have hm : ∀ e ∈ d, matchesKey eq h hash x e = decide (e.2.1 = x) := fun e he => matches_iff h hi g x he
  unfold putItem
  simp only [Bool.false_eq_true, if_false]
  have hany : d.any (matchesKey eq h hash x) = true ↔ x ∈ d.map (fun e => e.2.1) := by
    rw [List.any_eq_true, List.mem_map]
    exact ⟨fun ⟨e, he, q⟩ => ⟨e, he, by rw [hm e he] at q; simpa using q⟩, fun ⟨e, he, q⟩ => ⟨e, he, by rw [hm e he]; simpa using q⟩⟩
  by_cases hx : x ∈ d.map (fun e => e.2.1)
  · rw [if_pos (hany.mpr hx)]
    have hmap : d.map (fun e => if matchesKey eq h hash x e then (e.1, e.2.1, v) else e) = d.map (fun e => if e.2.1 = x then (e.1, e.2.1, v) else e) := by
      apply List.map_congr_left
      intro e he
      rw [hm e he]; simp
    rw [hmap]
    refine ⟨⟨?_, ?_⟩, ?_⟩
    · intro e he
      obtain ⟨e', he', rfl⟩ := List.mem_map.mp he
      split
      · exact g.hashes e' he'
      · exact g.hashes e' he'
    · rw [List.map_map]
      have : ((fun e : Int × Nat × β => e.2.1) ∘ fun e => if e.2.1 = x then (e.1, e.2.1, v) else e) = fun e => e.2.1 := by
        funext e; simp only [Function.comp_apply]; split <;> rfl
      rw [this]; exact g.once
    · intro y
      clear hmap hany hm g
      induction d with
      | nil => simp at hx
      | cons e d ih =>
        simp only [List.map_cons, List.find?_cons]
        by_cases q : e.2.1 = x
        · by_cases t : x = y
          · simp [q, t]
          · have t' : ¬ e.2.1 = y := fun r => t (q ▸ r)
            simp only [if_pos q, decide_eq_false t', if_neg t]
            by_cases hx' : x ∈ d.map (fun e => e.2.1)
            · rw [ih hx', if_neg t]
            · congr 2
              have : d.map (fun e => if e.2.1 = x then (e.1, e.2.1, v) else e) = d := by
                conv => rhs; rw [← List.map_id d]
                apply List.map_congr_left
                intro e' he'
                rw [if_neg (fun r => hx' (List.mem_map.mpr ⟨e', he', r⟩))]; rfl
              rw [this]
        · simp only [if_neg q]
          have hx' : x ∈ d.map (fun e => e.2.1) := by
            rw [List.map_cons, List.mem_cons] at hx
            rcases hx with r | r
            · exact absurd r.symm q
            · exact r
          by_cases t : e.2.1 = y
          · have t' : ¬ x = y := fun r => q (t.trans r.symm)
            simp [t, t']
          · simp only [decide_eq_false t]
            exact ih hx'
  · rw [if_neg (fun q => hx (hany.mp q))]
    refine ⟨⟨?_, ?_⟩, ?_⟩
    · intro e he
      rcases List.mem_append.mp he with q | q
      · exact g.hashes e q
      · simp only [List.mem_singleton] at q; subst q; rfl
    · rw [List.map_append, List.nodup_append]
      refine ⟨g.once, by simp, ?_⟩
      intro a ha b hb
      simp only [List.map_cons, List.map_nil, List.mem_singleton] at hb
      subst hb
      exact fun q => hx (q ▸ ha)
    · intro y
      rw [List.find?_append]
      by_cases t : x = y
      · subst t
        have : d.find? (fun e => decide (e.2.1 = x)) = none := by
          rw [List.find?_eq_none]
          intro e he
          simp only [decide_eq_true_eq]
          exact fun q => hx (List.mem_map.mpr ⟨e, he, q⟩)
        simp [this]
      · simp [t]

theorem goodDict_del {β : Type} (h : Nat → α) {hash : Nat → Int} (hi : ∀ a b, hash a = hash b → a = b) {d : Dict β} (g : GoodDict hash d) (x : Nat) :
    GoodDict hash (delItem false eq h hash d x).2 ∧ ∀ y, ((delItem false eq h hash d x).2.find? (fun e => decide (e.2.1 = y))).map (fun e => e.2.2) =
      if x = y then none else (d.find? (fun e => decide (e.2.1 = y))).map (fun e => e.2.2) := by
  have hm : ∀ e ∈ d, matchesKey eq h hash x e = decide (e.2.1 = x) := fun e he => matches_iff h hi g x he
  unfold delItem
  simp only [Bool.false_eq_true, if_false]
  have hany : d.any (matchesKey eq h hash x) = true ↔ x ∈ d.map (fun e => e.2.1) := by
    rw [List.any_eq_true, List.mem_map]
    exact ⟨fun ⟨e, he, q⟩ => ⟨e, he, by rw [hm e he] at q; simpa using q⟩, fun ⟨e, he, q⟩ => ⟨e, he, by rw [hm e he]; simpa using q⟩⟩
  by_cases hx : x ∈ d.map (fun e => e.2.1)
  · rw [if_pos (hany.mpr hx)]
    have hf : d.filter (fun e => !matchesKey eq h hash x e) = d.filter (fun e => !decide (e.2.1 = x)) := by
      apply List.filter_congr
      intro e he
      rw [hm e he]
    rw [hf]
    refine ⟨⟨fun e he => g.hashes e (List.mem_filter.mp he).1, (List.filter_sublist.map _).nodup g.once⟩, ?_⟩
    intro y
    rw [List.find?_filter]
    by_cases t : x = y
    · subst t
      rw [if_pos rfl, Option.map_eq_none_iff, List.find?_eq_none]
      intro e _
      by_cases q : e.2.1 = x <;> simp [q]
    · rw [if_neg t]
      congr 2
      funext e
      by_cases q : e.2.1 = y
      · have : ¬ e.2.1 = x := fun r => t (r.symm.trans q)
        have : ¬ y = x := fun r => t r.symm
        simp [q, this]
      · simp [q]
  · rw [if_neg (fun q => hx (hany.mp q))]
    refine ⟨g, ?_⟩
    intro y
    by_cases t : x = y
    · subst t
      rw [if_pos rfl, Option.map_eq_none_iff, List.find?_eq_none]
      intro e he
      simp only [decide_eq_true_eq]
      exact fun q => hx (List.mem_map.mpr ⟨e, he, q⟩)
    · rw [if_neg t]

theorem dictRun_good {β : Type} {hash : Nat → Int} (hi : ∀ a b, hash a = hash b → a = b) (ops : List (DictOp α β)) : ∀ (h : Nat → α) (d : Dict β), GoodDict hash d →
    GoodDict hash (dictRun false eq hash (h, d) ops).2 ∧ ∀ y, ((dictRun false eq hash (h, d) ops).2.find? (fun e => decide (e.2.1 = y))).map (fun e => e.2.2) =
      storedUnder y ((d.find? (fun e => decide (e.2.1 = y))).map (fun e => e.2.2)) ops := by
  induction ops with
  | nil => exact fun h d g => ⟨g, fun y => rfl⟩
  | cons op ops ih =>
    intro h d g
    cases op with
    | put x v =>
      obtain ⟨g', e⟩ := goodDict_put (eq := eq) h hi g x v
      obtain ⟨g'', e'⟩ := ih h _ g'
      refine ⟨g'', fun y => ?_⟩
      have := e' y
      rw [e y] at this
      exact this
    | del x =>
      obtain ⟨g', e⟩ := goodDict_del (eq := eq) h hi g x
      obtain ⟨g'', e'⟩ := ih h _ g'
      refine ⟨g'', fun y => ?_⟩
      have := e' y
      rw [e y] at this
      exact this
    | other h' => exact ih h' d g

/-- **C128** (dictionaries, Python 2). Different objects have different hash values (their addresses). After any history that starts from an empty dictionary, in which values are stored under
objects, deleted, and the objects changed, `d[x]` is what was last stored under the object `x` itself and not deleted since, and KeyError otherwise, whatever was stored under other
objects that show the same; `x in d` tells which. Storing is never refused, deleting is, by KeyError, when nothing is stored under the object. -/
theorem C128_dict_py2 {β : Type} (eq : α → α → Bool) {hash : Nat → Int} (hi : ∀ a b, hash a = hash b → a = b) (h0 : Nat → α) (ops : List (DictOp α β)) (x : Nat) :
    let s := dictRun false eq hash (h0, ([] : Dict β)) ops
    (∀ v, storedUnder x none ops = some v → getItem false eq s.1 hash s.2 x = .ok v ∧ hasKey false eq s.1 hash s.2 x = .ok true ∧
      (delItem false eq s.1 hash s.2 x).1 = .ok ()) ∧
    (storedUnder x none ops = none → getItem false eq s.1 hash s.2 x = .error .keyError ∧ hasKey false eq s.1 hash s.2 x = .ok false ∧
      delItem false eq s.1 hash s.2 x = (.error .keyError, s.2)) ∧
    ∀ v, (putItem false eq s.1 hash s.2 x v).1 = .ok () := by
  intro s
  obtain ⟨g, e⟩ := dictRun_good (eq := eq) hi ops h0 [] ⟨by simp, by simp⟩
  have e := e x
  change GoodDict hash s.2 at g
  change (s.2.find? (fun e => decide (e.2.1 = x))).map (fun e => e.2.2) = _ at e
  simp only [List.find?_nil, Option.map_none] at e
  have hf : ∀ {l : Dict β}, (∀ e ∈ l, e ∈ s.2) → l.find? (matchesKey eq s.1 hash x) = l.find? (fun e => decide (e.2.1 = x)) := by
    intro l
    induction l with
    | nil => intro _; rfl
    | cons a l ih =>
      intro hl
      simp only [List.find?_cons, matches_iff s.1 hi g x (hl a (by simp)), ih (fun e he => hl e (by simp [he]))]
  have hf := hf (fun e he => he)
  have hany : s.2.any (matchesKey eq s.1 hash x) = (s.2.find? (matchesKey eq s.1 hash x)).isSome := by
    rw [Bool.eq_iff_iff, List.any_eq_true, List.find?_isSome]
  unfold getItem hasKey delItem putItem
  simp only [Bool.false_eq_true, if_false]
  rw [hany, hf, ← e]
  refine ⟨?_, ?_, fun v => by split <;> rfl⟩
  · intro v hv
    rw [Option.map_eq_some_iff] at hv
    obtain ⟨a, ha, rfl⟩ := hv
    simp [ha]
  · intro hn
    rw [Option.map_eq_none_iff] at hn
    simp [hn]

/-- **C128** (an equal key is not found). An object stored in a dictionary of Python 2 is not found under another object, though the two compare equal. -/
theorem C128_dict_missed {β : Type} (hc : Compares eq view) {hash : Nat → Int} (hi : ∀ a b, hash a = hash b → a = b) (h : Nat → α) (x y : Nat) (hxy : x ≠ y) (hv : view (h x) = view (h y))
    (v : β) : eqOp eq h (some x) (some y) = .ok true ∧ (putItem false eq h hash ([] : Dict β) x v).1 = .ok () ∧
      getItem false eq h hash (putItem false eq h hash ([] : Dict β) x v).2 y = .error .keyError := by
  refine ⟨?_, rfl, ?_⟩
  · obtain ⟨⟨t, e, ht⟩, _⟩ := C128_eq_ne hc h x y
    rw [ht.mpr hv] at e; exact e
  · have := (C128_dict_py2 eq hi h [DictOp.put x v] y).2.1 (by simp [storedUnder, hxy])
    exact this.1

/-- **C128** (numbers). A number that was initialised behaves the same under both Pythons. One that never was is, under Python 2, equal to its like and less than every other number, and
`toBytes` of it writes zeros; Python 3 raises TypeError in both cases. -/
theorem C128_numbers (x : BigNumber) (outBuf : List Int) (off n : Nat) (f : Int) (hf : f = 1 ∨ f = 2) :
    (∀ y, (x.value.isSome ↔ y.value.isSome) → x.compareTo y = .ok (compareTo2 x y)) ∧
    (∀ o m fmt, x.value.isSome → toBytes2 x outBuf o m fmt = x.toBytes outBuf o m fmt) ∧
    (∀ a o l fmt, x.value.isSome → compareToArray2 x a o l fmt = x.compareToArray a o l fmt) ∧
    (x.value = none →
      (∀ y, y.value.isSome → compareTo2 x y = -1 ∧ compareTo2 y x = 1 ∧ x.compareTo y = .error .typeError ∧ y.compareTo x = .error .typeError) ∧
      x.toBytes outBuf off n f = (.error .typeError, outBuf) ∧
      (off + n ≤ outBuf.length → ∃ buf, toBytes2 x outBuf off n f = (.ok (), buf) ∧ Written outBuf buf off (List.replicate n 0))) := by
  obtain ⟨m, v⟩ := x
  refine ⟨?_, ?_, ?_, ?_⟩
  · rintro ⟨m', v'⟩ h
    unfold BigNumber.compareTo compareTo2
    cases v <;> cases v' <;> simp at h ⊢
    split
    · rfl
    · split <;> rfl
  · intro o k fmt h
    cases v with
    | none => simp at h
    | some a => simp only [toBytes2, BigNumber.toBytes]
  · intro a o l fmt h
    cases v with
    | none => simp at h
    | some b =>
      unfold compareToArray2 BigNumber.compareToArray
      cases BigNumber.operand a o l fmt with
      | error e => rfl
      | ok u =>
        simp only [BigNumber.compareTo, compareTo2]
        split
        · rfl
        · split <;> rfl
  · rintro h
    simp only at h; subst h
    refine ⟨?_, ?_, ?_⟩
    · rintro ⟨m', v'⟩ h
      cases v' with
      | none => simp at h
      | some b => simp [compareTo2, BigNumber.compareTo]
    · rcases hf with rfl | rfl <;> simp [BigNumber.toBytes, BigNumber.FORMAT_BCD, BigNumber.FORMAT_HEX]
    · intro hfit
      have hf' : f = BigNumber.FORMAT_BCD ∨ f = BigNumber.FORMAT_HEX := hf
      simp only [toBytes2, if_pos hf']
      have e : ∀ k : Int, k = n → ([] ++ fresh k (0 : Int)).reverse = List.replicate n (0 : Int) := by
        rintro k rfl; simp [fresh]
      rw [if_neg (by simp), e _ (by simp)]
      have := arrayCopy_ok (List.replicate n 0) outBuf 0 off n (by simp) hfit
      rw [show ((0 : Nat) : Int) = 0 from rfl] at this
      refine ⟨_, this, ?_⟩
      have e2 : ((List.replicate n (0 : Int)).drop 0).take n = List.replicate n 0 := by simp
      rw [e2]
      exact written_splice _ _ _ (by simpa using hfit)

/-- Three AIDs at the addresses 0, 1 and 2; the first two have the same bytes. -/
def threeAIDs (i : Nat) : AID := ⟨if i = 2 then [160, 0, 0, 0, 4] else [160, 0, 0, 0, 3]⟩

/-- The hypotheses: AIDs compare by their bytes, and two of the three are the same. -/
example : Compares AID.eq (fun a => a.aid) ∧ threeAIDs 0 = threeAIDs 1 ∧ threeAIDs 0 ≠ threeAIDs 2 ∧ (∀ a b : Nat, ((16 * a : Nat) : Int) = (16 * b : Nat) → a = b) :=
  ⟨C128_views.1, rfl, by decide, fun a b h => by omega⟩

/-- Equal and not one object: `==` under both Pythons, `!=` too under Python 2. -/
example : eqOp AID.eq threeAIDs (some 0) (some 1) = .ok true ∧ neOp false AID.eq threeAIDs (some 0) (some 1) = .ok true ∧ neOp true AID.eq threeAIDs (some 0) (some 1) = .ok false ∧
    isIn AID.eq threeAIDs (some 0) [some 2, some 1, none] = .ok true ∧ isIn AID.eq threeAIDs (some 0) [some 2, none, some 1] = .error .attributeError ∧
    remove AID.eq threeAIDs (some 0) [some 2, some 1, some 0] = (.ok (), [some 2, some 0]) ∧ count AID.eq threeAIDs (some 0) [some 2, some 1, some 0] = .ok 2 := by decide

/-- A dictionary: values under the objects 0 and 2, then all objects come to have the same bytes, then the value under 2 is replaced. -/
example : let s := dictRun false AID.eq (fun a => 16 * a) (threeAIDs, ([] : Dict Nat)) [.put 0 7, .put 2 8, .other fun _ => ⟨[1, 2, 3, 4, 5]⟩, .put 2 9]
    s.2 = [(0, 0, 7), (32, 2, 9)] ∧ getItem false AID.eq s.1 (fun a => 16 * a) s.2 0 = .ok 7 ∧ getItem false AID.eq s.1 (fun a => 16 * a) s.2 1 = .error .keyError := by decide

example : compareTo2 ⟨none, none⟩ ⟨none, some 0⟩ = -1 ∧ toBytes2 ⟨none, none⟩ [1, 2, 3, 4] 1 2 1 = (.ok (), [1, 0, 0, 4]) ∧
    (⟨none, none⟩ : BigNumber).toBytes [1, 2, 3, 4] 1 2 1 = (.error .typeError, [1, 2, 3, 4]) := by decide

end Verif.Props
