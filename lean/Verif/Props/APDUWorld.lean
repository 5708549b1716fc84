import Verif.Model.APDUWorld
import Verif.Props.APDUParse
/-! C81: several APDU objects, the lists they share with the caller, and the current APDU. -/
namespace Verif.Props
open Verif.Model Verif.Py Verif.Spec

/-! ### Specification -/

/-- The calls made on object `i` in a program, in order. -/
def callsOn (i : Nat) : List World.Step → List APDU.Op
  | [] => []
  | .call j op :: ss => if j = i then op :: callsOn i ss else callsOn i ss
  | _ :: ss => callsOn i ss

/-- The calls on object `i` with what they answered. -/
def answersOn (i : Nat) : List (World.Step × Except Err Int) → List (APDU.Op × Except Err Int)
  | [] => []
  | (.call j op, out) :: ss => if j = i then (op, out) :: answersOn i ss else answersOn i ss
  | _ :: ss => answersOn i ss

/-- What the calls answer on an APDU that is alone in the world. -/
def aloneAnswers (a : APDU) : List APDU.Op → List (APDU.Op × Except Err Int)
  | [] => []
  | op :: ops => (op, (a.step op).1) :: aloneAnswers (a.step op).2 ops

/-- Number of constructor calls that were not refused as too short (`BAD_LENGTH`). -/
def constructions : List (World.Step × Except Err Int) → Nat
  | [] => 0
  | (.construct _, out) :: ss => (if out = .error (.apdu 0) then 0 else 1) + constructions ss
  | _ :: ss => constructions ss

/-! ### Lemmas -/

theorem headerBuffer_ok (bytes : List Int) (h : 4 ≤ bytes.length) :
    ∃ k, (4 ≤ k ∧ (bytes.length ≤ 7 → k ≤ 5)) ∧ World.headerBuffer bytes = .ok (bytes.take k ++ APDU.zeros (257 - k)) := by
  have hc := APDU.done_copy bytes (APDU.zeros 257) 0 0 4 (by omega) (by rw [APDU.zeros_length]; omega)
  simp only [Int.natCast_zero] at hc
  unfold World.headerBuffer
  rw [APDU.fresh_zeros, hc]
  simp only [bind, Except.bind]
  by_cases h4 : bytes.length = 4
  · rw [if_neg (by omega)]
    have hb := APDU.buffer_two bytes 0 (by omega) (by omega)
    simp only [List.take_zero, splice_nil] at hb
    exact ⟨4, ⟨by omega, fun _ => by omega⟩, by rw [hb]; rfl⟩
  · rw [if_pos (by omega)]
    rw [show (4 : Int) = ((4 : Nat) : Int) from rfl, get_natCast _ _ (show 4 < bytes.length by omega)]
    simp only
    have key : ∀ p, 4 + p ≤ bytes.length → p ≤ 3 →
        APDU.done (copyRange bytes ((4 : Nat) : Int) (splice (APDU.zeros 257) 0 (List.take 4 (List.drop 0 bytes))) ((4 : Nat) : Int) 0 p) =
          .ok (bytes.take (4 + p) ++ APDU.zeros (257 - (4 + p))) := by
      intro p hp hp3
      rw [APDU.done_copy _ _ _ _ _ (by omega) (by rw [splice_length _ _ _ (by simp [APDU.zeros_length]; omega), APDU.zeros_length]; omega),
        APDU.buffer_two bytes p hp hp3]
    split
    · rename_i hlc
      exact ⟨4 + 3, ⟨by omega, fun h7 => absurd hlc.2 (by omega)⟩, key 3 (by omega) (by omega)⟩
    · exact ⟨4 + 1, ⟨by omega, fun _ => by omega⟩, key 1 (by omega) (by omega)⟩

theorem init_error_index (bytes : List Int) (h : 4 ≤ bytes.length) (e : Err) (he : APDU.init bytes = .error e) :
    e = .indexError ∧ bytes.length = 6 ∧ bytes[4]? = some 0 := by
  by_cases e4 : bytes.length = 4
  · rw [APDU.init_four bytes e4] at he; cases he
  by_cases e5 : bytes.length = 5
  · rw [APDU.init_A bytes e5] at he; cases he
  by_cases h0 : bytes[4] = 0
  · by_cases e6 : bytes.length = 6
    · rw [APDU.init_E bytes e6 h0] at he
      injection he with he
      exact ⟨he.symm, e6, by rw [List.getElem?_eq_getElem (by omega), h0]⟩
    by_cases e7 : bytes.length = 7
    · rw [APDU.init_B bytes e7 h0] at he; cases he
    by_cases hn : (bytes.length : Int) = u1 (bytes[5]'(by omega)) * (256 : Int) + u1 (bytes[6]'(by omega)) + 5
    · rw [APDU.init_F bytes (by omega) h0 hn] at he; cases he
    · rw [APDU.init_G bytes (by omega) h0 hn] at he; cases he
  · exfalso
    by_cases hn : (bytes.length : Int) = u1 (bytes[4]'(by omega)) + 5
    · rw [APDU.init_C bytes (by omega) h0 hn] at he; cases he
    · rw [APDU.init_five bytes (by omega)] at he
      have hc : ¬ ((bytes.length : Int) = 5 ∨ (bytes[4] = 0 ∧ (bytes.length : Int) = 7)) := by
        simp only [h0, false_and, or_false]; omega
      simp only [hc, if_false, APDU.getIn_short bytes (by omega) h0, APDU.getOut_short bytes bytes.length rfl (by omega) (.inr h0)] at he
      by_cases hb : (bytes.length : Int) = bytes[4] + 5
      · simp only [hb, if_true] at he
        cases he
      · simp only [hb, if_false, hn, decide_false] at he
        cases he

theorem construct_cases (w : World) (r : Nat) :
    ((w.lists r).length < 4 ∧ w.construct r = (.error (.apdu 0), w)) ∨
    (4 ≤ (w.lists r).length ∧ (w.construct r).1 ≠ .error (.apdu 0) ∧ (w.construct r).2.lists = w.lists ∧
      (w.construct r).2.current = some w.objs.length ∧
      ∃ o, (w.construct r).2.objs = w.objs ++ [(r, o)] ∧
        (∀ a, APDU.init (w.lists r) = .ok a → o = .full a ∧ (w.construct r).1 = .ok (w.objs.length : Int)) ∧
        (∀ e, APDU.init (w.lists r) = .error e → (∃ k, (4 ≤ k ∧ ((w.lists r).length ≤ 7 → k ≤ 5)) ∧ o = .half ⟨(w.lists r).take k ++ APDU.zeros (257 - k), 0⟩) ∧
          (w.construct r).1 = .error e)) := by
  by_cases h : (w.lists r).length < 4
  · left
    refine ⟨h, ?_⟩
    unfold World.construct
    simp only
    rw [if_pos (by omega)]
    rfl
  · right
    refine ⟨by omega, ?_⟩
    obtain ⟨k, hk, hb⟩ := headerBuffer_ok (w.lists r) (by omega)
    unfold World.construct
    simp only
    rw [if_neg (by omega), hb]
    simp only
    cases ha : APDU.init (w.lists r) with
    | ok a =>
      simp only
      refine ⟨by simp, trivial, trivial, _, rfl, ?_, ?_⟩
      · intro a' h; injection h with h; subst h; exact ⟨rfl, trivial⟩
      · intro e h; cases h
    | error e =>
      simp only
      refine ⟨?_, trivial, trivial, _, rfl, ?_, ?_⟩
      · intro h
        injection h with h
        rw [(init_error_index _ (by omega) _ ha).1] at h
        cases h
      · intro a h; cases h
      · intro e' h; injection h with h; subst h
        exact ⟨⟨k, hk, rfl⟩, rfl⟩

theorem call_objs (w : World) (i : Nat) (op : APDU.Op) : (w.call i op).2.objs.length = w.objs.length ∧ (w.call i op).2.current = w.current := by
  unfold World.call
  split <;> simp

/-! ### C81: the current APDU -/

theorem run_current (ss : List World.Step) : ∀ w : World, w.current = (if w.objs.length = 0 then none else some (w.objs.length - 1)) →
    (w.run ss).current = (if (w.run ss).objs.length = 0 then none else some ((w.run ss).objs.length - 1)) ∧
    (w.run ss).objs.length = w.objs.length + constructions (w.outcomes ss) := by
  induction ss with
  | nil => intro w h; exact ⟨h, rfl⟩
  | cons s ss ih =>
    intro w h
    unfold World.run World.outcomes
    cases s with
    | construct r =>
      rcases construct_cases w r with ⟨_, hc⟩ | ⟨_, hne, _, hcur, o, hobj, _⟩
      · obtain ⟨h1, h2⟩ := ih (w.step (.construct r)).2 (by rw [show w.step (.construct r) = w.construct r from rfl, hc]; exact h)
        refine ⟨h1, ?_⟩
        rw [h2]
        rw [show w.step (.construct r) = w.construct r from rfl, hc]
        show _ = _ + ((if (Except.error (Err.apdu 0) : Except Err Int) = .error (.apdu 0) then 0 else 1) + _)
        rw [if_pos rfl, Nat.zero_add]
      · obtain ⟨h1, h2⟩ := ih (w.step (.construct r)).2 (by
          rw [show w.step (.construct r) = w.construct r from rfl, hcur, hobj]; simp)
        refine ⟨h1, ?_⟩
        rw [h2]
        rw [show w.step (.construct r) = w.construct r from rfl]
        show _ = _ + ((if (w.construct r).1 = .error (.apdu 0) then 0 else 1) + _)
        rw [if_neg hne, hobj]
        simp only [List.length_append, List.length_cons, List.length_nil]
        omega
    | call i op =>
      obtain ⟨e1, e2⟩ := call_objs w i op
      obtain ⟨h1, h2⟩ := ih (w.step (.call i op)).2 (by
        rw [show w.step (.call i op) = w.call i op from rfl, e1, e2]; exact h)
      refine ⟨h1, ?_⟩
      rw [h2]
      rw [show w.step (.call i op) = w.call i op from rfl, e1]
      rfl
    | write r l =>
      obtain ⟨h1, h2⟩ := ih (w.step (.write r l)).2 h
      exact ⟨h1, by rw [h2]; rfl⟩

/-- C81. In every program, getCurrentAPDU() is the object made by the last constructor call that got at least four bytes (objects are
numbered from 0 in the order of these calls), and None when there was none: calls on other objects and writes to lists do not change it.
-/
theorem C81_current (lists : Nat → List Int) (ss : List World.Step) :
    ((World.init lists).run ss).getCurrentAPDU =
      match constructions ((World.init lists).outcomes ss) with
      | 0 => none
      | n + 1 => some n := by
  obtain ⟨h1, h2⟩ := run_current ss (World.init lists) rfl
  unfold World.getCurrentAPDU
  rw [h1, h2, show (World.init lists).objs.length = 0 from rfl, Nat.zero_add]
  generalize constructions ((World.init lists).outcomes ss) = n
  cases n with
  | zero => rfl
  | succ n => simp

/-- C81. A constructor call with at least four bytes makes the object it works on the current one; it is the APDU the bytes describe.
-/
theorem C81_construct (w : World) (r : Nat) (a : APDU) (ha : APDU.init (w.lists r) = .ok a) :
    (w.construct r).1 = .ok (w.objs.length : Int) ∧ (w.construct r).2.getCurrentAPDU = some w.objs.length ∧
    (w.construct r).2.view w.objs.length = some (.full { a with raw := w.lists r }) ∧
    (∀ j < w.objs.length, (w.construct r).2.view j = w.view j) := by
  rcases construct_cases w r with ⟨h4, _⟩ | ⟨_, _, hl, hcur, o, hobj, hok, _⟩
  · rw [C23_too_short _ h4] at ha; cases ha
  · obtain ⟨rfl, h1⟩ := hok a ha
    refine ⟨h1, hcur, ?_, ?_⟩
    · unfold World.view
      rw [hobj, hl]
      simp
    · intro j hj
      unfold World.view
      rw [hobj, hl, List.getElem?_append_left hj]

/-- C81. The static queries read the buffer of the current APDU, on whatever object they are called. -/
theorem C81_channel (w : World) (i : Nat) (hi : w.getCurrentAPDU = some i) (b : List Int) (hb : w.bufferOf i = some b) :
    w.getCurrentAPDUBuffer = .ok b ∧ ∀ v, b[0]? = some v → w.getCLAChannel = .ok (v % 4) := by
  have h1 : w.getCurrentAPDUBuffer = .ok b := by
    unfold World.getCurrentAPDUBuffer
    rw [show w.current = some i from hi]
    simp only [hb]
  refine ⟨h1, fun v hv => ?_⟩
  unfold World.getCLAChannel
  rw [h1]
  simp only
  have hl : 0 < b.length := by
    cases b with
    | nil => cases hv
    | cons => simp
  rw [show (0 : Int) = ((0 : Nat) : Int) from rfl, get_natCast _ _ hl]
  rw [List.getElem?_eq_getElem hl] at hv
  injection hv with hv
  simp only [hv]
  rw [iand_03]

/-! ### C81: objects on different lists do not disturb each other -/

theorem init_raw (bytes : List Int) (a : APDU) (ha : APDU.init bytes = .ok a) : a.raw = bytes := by
  by_cases h4 : bytes.length < 4
  · rw [C23_too_short _ h4] at ha; cases ha
  by_cases e4 : bytes.length = 4
  · rw [APDU.init_four bytes e4] at ha; injection ha with ha; rw [← ha]; rfl
  by_cases h0 : bytes[4] = 0
  · by_cases e5 : bytes.length = 5
    · rw [APDU.init_A bytes e5] at ha; injection ha with ha; rw [← ha]; rfl
    by_cases e6 : bytes.length = 6
    · rw [APDU.init_E bytes e6 h0] at ha; cases ha
    by_cases e7 : bytes.length = 7
    · rw [APDU.init_B bytes e7 h0] at ha; injection ha with ha; rw [← ha]; rfl
    by_cases hn : (bytes.length : Int) = u1 (bytes[5]'(by omega)) * (256 : Int) + u1 (bytes[6]'(by omega)) + 5
    · rw [APDU.init_F bytes (by omega) h0 hn] at ha; injection ha with ha; rw [← ha]; rfl
    · rw [APDU.init_G bytes (by omega) h0 hn] at ha; injection ha with ha; rw [← ha]; rfl
  · by_cases e5 : bytes.length = 5
    · rw [APDU.init_A bytes e5] at ha; injection ha with ha; rw [← ha]; rfl
    by_cases hn : (bytes.length : Int) = u1 (bytes[4]'(by omega)) + 5
    · rw [APDU.init_C bytes (by omega) h0 hn] at ha; injection ha with ha; rw [← ha]; rfl
    · rw [APDU.init_five bytes (by omega)] at ha
      have hc : ¬ ((bytes.length : Int) = 5 ∨ (bytes[4] = 0 ∧ (bytes.length : Int) = 7)) := by
        simp only [h0, false_and, or_false]; omega
      simp only [hc, if_false, APDU.getIn_short bytes (by omega) h0, APDU.getOut_short bytes bytes.length rfl (by omega) (.inr h0)] at ha
      by_cases hb : (bytes.length : Int) = bytes[4] + 5
      · simp only [hb, if_true] at ha
        injection ha with ha; rw [← ha]; rfl
      · simp only [hb, if_false, hn, decide_false] at ha
        injection ha with ha; rw [← ha]; rfl

/-- Object `i` is an APDU in state `a` on list `r`, and no other object is on `r`. -/
structure Alone (w : World) (i r : Nat) (a : APDU) : Prop where
  obj : ∃ x, w.objs[i]? = some (r, .full x) ∧ { x with raw := w.lists r } = a
  others : ∀ j, j ≠ i → ∀ p, w.objs[j]? = some p → p.1 ≠ r

theorem alone_step {w : World} {i r : Nat} {a : APDU} (h : Alone w i r a) (s : World.Step) (h1 : s ≠ .construct r) (h2 : ∀ l, s ≠ .write r l) :
    (∀ op, s = .call i op → (w.step s).1 = (a.step op).1 ∧ Alone (w.step s).2 i r (a.step op).2) ∧
    ((∀ op, s ≠ .call i op) → Alone (w.step s).2 i r a) := by
  obtain ⟨⟨x, hx, hxa⟩, ho⟩ := h
  have hi : i < w.objs.length := by
    by_cases hlt : i < w.objs.length
    · exact hlt
    · rw [List.getElem?_eq_none (by omega)] at hx; cases hx
  constructor
  · rintro op rfl
    show (w.call i op).1 = _ ∧ Alone (w.call i op).2 i r _
    unfold World.call
    rw [hx]
    simp only [hxa]
    refine ⟨trivial, ⟨⟨(a.step op).2, ?_, ?_⟩, ?_⟩⟩
    · simp [hi]
    · simp
    · intro j hj p hp
      rw [List.getElem?_set_ne (fun e => hj e.symm)] at hp
      exact ho j hj p hp
  · intro hs
    cases s with
    | construct q =>
      have hq : q ≠ r := fun e => h1 (by rw [e])
      show Alone (w.construct q).2 i r a
      rcases construct_cases w q with ⟨_, hc⟩ | ⟨_, _, hl, _, o, hobj, _⟩
      · rw [hc]; exact ⟨⟨x, hx, hxa⟩, ho⟩
      · refine ⟨⟨x, by rw [hobj, List.getElem?_append_left hi, hx], by rw [hl]; exact hxa⟩, ?_⟩
        intro j hj p hp
        rw [hobj] at hp
        by_cases hjl : j < w.objs.length
        · rw [List.getElem?_append_left hjl] at hp
          exact ho j hj p hp
        · rw [List.getElem?_append_right (by omega)] at hp
          cases hk : j - w.objs.length with
          | zero =>
            rw [hk] at hp
            injection hp with hp
            rw [← hp]
            exact hq
          | succ k => rw [hk] at hp; cases hp
    | write q l =>
      have hq : q ≠ r := fun e => h2 l (by rw [e])
      refine ⟨⟨x, hx, ?_⟩, ho⟩
      show { x with raw := if r = q then l else w.lists r } = a
      rw [if_neg (fun e => hq e.symm)]
      exact hxa
    | call j op =>
      have hj : j ≠ i := fun e => hs op (by rw [e])
      show Alone (w.call j op).2 i r a
      unfold World.call
      split
      · exact ⟨⟨x, hx, hxa⟩, ho⟩
      · rename_i q hh hq
        refine ⟨⟨x, by rw [List.getElem?_set_ne hj, hx], hxa⟩, ?_⟩
        intro k hk p hp
        by_cases hkj : j = k
        · subst hkj
          have hjl : j < w.objs.length := by
            by_cases hlt : j < w.objs.length
            · exact hlt
            · rw [List.getElem?_eq_none (by omega)] at hq; cases hq
          rw [List.getElem?_set_self hjl] at hp
          injection hp with hp
          rw [← hp]
          exact ho j hk (q, .half hh) hq
        · rw [List.getElem?_set_ne hkj] at hp
          exact ho k hk p hp
      · rename_i q y hq
        have hqr : q ≠ r := ho j hj _ hq
        refine ⟨⟨x, by simp only; rw [List.getElem?_set_ne hj, hx], ?_⟩, ?_⟩
        · simp only
          rw [if_neg (fun e => hqr e.symm)]
          exact hxa
        · intro k hk p hp
          simp only at hp
          by_cases hkj : j = k
          · subst hkj
            have hjl : j < w.objs.length := by
              by_cases hlt : j < w.objs.length
              · exact hlt
              · rw [List.getElem?_eq_none (by omega)] at hq; cases hq
            rw [List.getElem?_set_self hjl] at hp
            injection hp with hp
            rw [← hp]
            exact hqr
          · rw [List.getElem?_set_ne hkj] at hp
            exact ho k hk p hp

theorem alone_run (ss : List World.Step) : ∀ {w : World} {i r : Nat} {a : APDU}, Alone w i r a →
    (∀ s ∈ ss, s ≠ .construct r ∧ ∀ l, s ≠ .write r l) →
    Alone (w.run ss) i r (a.run (callsOn i ss)) ∧ answersOn i (w.outcomes ss) = aloneAnswers a (callsOn i ss) := by
  induction ss with
  | nil => intro w i r a h _; exact ⟨h, rfl⟩
  | cons s ss ih =>
    intro w i r a h hs
    have hh := hs s (List.mem_cons_self ..)
    obtain ⟨hc, hn⟩ := alone_step h s hh.1 hh.2
    have htl := fun s' hs' => hs s' (List.mem_cons_of_mem _ hs')
    by_cases e : ∃ op, s = .call i op
    · obtain ⟨op, rfl⟩ := e
      obtain ⟨h1, h2⟩ := hc op rfl
      obtain ⟨i1, i2⟩ := ih h2 htl
      have e1 : callsOn i (.call i op :: ss) = op :: callsOn i ss := by simp [callsOn]
      rw [e1]
      refine ⟨i1, ?_⟩
      show answersOn i ((.call i op, _) :: _) = (op, _) :: _
      rw [← i2, ← h1]
      simp [answersOn]
    · have e' : ∀ op, s ≠ .call i op := fun op he => e ⟨op, he⟩
      obtain ⟨i1, i2⟩ := ih (hn e') htl
      have e1 : callsOn i (s :: ss) = callsOn i ss := by
        cases s with
        | call j op => simp [callsOn, show j ≠ i from fun h => e' op (by rw [h])]
        | construct => rfl
        | write => rfl
      have e2 : answersOn i (w.outcomes (s :: ss)) = answersOn i ((w.step s).2.outcomes ss) := by
        show answersOn i ((s, (w.step s).1) :: _) = _
        cases s with
        | call j op => simp [answersOn, show j ≠ i from fun h => e' op (by rw [h])]
        | construct => rfl
        | write => rfl
      rw [e1, e2]
      exact ⟨i1, i2⟩

/-- C81. However the calls on several APDU objects are interleaved, an object whose list nobody else uses behaves as if it were alone: every
call on it answers, and its final state is, what its own calls give on their own. -/
theorem C81_isolated (w : World) (r : Nat) (a : APDU) (ha : APDU.init (w.lists r) = .ok a) (hr : ∀ p ∈ w.objs, p.1 ≠ r)
    (ss : List World.Step) (hss : ∀ s ∈ ss, s ≠ .construct r ∧ ∀ l, s ≠ .write r l) :
    ((w.construct r).2.run ss).view w.objs.length = some (.full (a.run (callsOn w.objs.length ss))) ∧
    answersOn w.objs.length ((w.construct r).2.outcomes ss) = aloneAnswers a (callsOn w.objs.length ss) ∧
    ((w.construct r).2.run ss).lists r = (a.run (callsOn w.objs.length ss)).raw := by
  rcases construct_cases w r with ⟨h4, _⟩ | ⟨_, _, hl, hcur, o, hobj, hok, _⟩
  · rw [C23_too_short _ h4] at ha; cases ha
  obtain ⟨rfl, h1⟩ := hok a ha
  have h0 : Alone (w.construct r).2 w.objs.length r a := by
    refine ⟨⟨a, by rw [hobj]; simp, by rw [hl, ← init_raw _ a ha]⟩, ?_⟩
    intro j hj p hp
    rw [hobj] at hp
    by_cases hjl : j < w.objs.length
    · rw [List.getElem?_append_left hjl] at hp
      exact hr p (List.mem_of_getElem? hp)
    · rw [List.getElem?_eq_none (by simp; omega)] at hp
      cases hp
  obtain ⟨h2, h3⟩ := alone_run ss h0 hss
  obtain ⟨x, hx, hxa⟩ := h2.obj
  refine ⟨?_, h3, by rw [← hxa]⟩
  unfold World.view
  rw [hx]
  simp only [hxa]

/-! ### C81: objects on one list -/

/-- C81. Two APDU objects made from one list share it: a call on one of them leaves the other with the list as the first left it (so a
response sent through one is what the other goes on to receive), and changes nothing else of it. The caller's list is that same list. -/
theorem C81_shared (w : World) (i j r : Nat) (hij : i ≠ j) (a b : APDU) (op : APDU.Op)
    (hi : w.objs[i]? = some (r, .full a)) (hj : w.objs[j]? = some (r, .full b)) :
    (w.call i op).2.view i = some (.full (APDU.step { a with raw := w.lists r } op).2) ∧
    (w.call i op).2.view j = some (.full { b with raw := (APDU.step { a with raw := w.lists r } op).2.raw }) ∧
    (w.call i op).2.lists r = (APDU.step { a with raw := w.lists r } op).2.raw := by
  have hil : i < w.objs.length := by
    by_cases hlt : i < w.objs.length
    · exact hlt
    · rw [List.getElem?_eq_none (by omega)] at hi; cases hi
  unfold World.call
  rw [hi]
  simp only [World.view]
  rw [List.getElem?_set_self hil, List.getElem?_set_ne hij, hj]
  simp

/-! ### C81: the half-made current APDU -/

/-- C81. The constructor that fails with IndexError (six bytes, the fifth zero) has already made its object the current APDU. From then on every
call on that object except stores into its buffer raises, with ILLEGAL_USE or AttributeError, whatever was called before. -/
theorem C81_half_made (w : World) (r : Nat) (h6 : (w.lists r).length = 6) (h0 : (w.lists r)[4]? = some 0) :
    (w.construct r).1 = .error .indexError ∧ (w.construct r).2.getCurrentAPDU = some w.objs.length ∧
    ∃ b, (w.construct r).2.view w.objs.length = some (.half ⟨b, 0⟩) ∧ b = (w.lists r).take 4 ++ List.replicate 253 0 ∧
      ∀ (h : HalfAPDU) (op : APDU.Op), (∀ i v, op ≠ .poke i v) →
        ((h.step op).1 = .error (.apdu 2) ∨ (h.step op).1 = .error .attributeError) ∧ (h.step op).2.buffer = h.buffer := by
  have hin := C23_six _ h6 h0
  rcases construct_cases w r with ⟨h4, _⟩ | ⟨_, _, hl, hcur, o, hobj, _, herr⟩
  · omega
  obtain ⟨⟨k, ⟨hk, hk5⟩, rfl⟩, h1⟩ := herr _ hin
  have hk5 := hk5 (by omega)
  refine ⟨h1, hcur, (w.lists r).take k ++ APDU.zeros (257 - k), ?_, ?_, ?_⟩
  · unfold World.view
    rw [hobj]
    simp
  · have h45 : k = 4 ∨ k = 5 := by omega
    rcases h45 with rfl | rfl
    · rfl
    · match hl6 : w.lists r, h6, h0 with
      | [a, b, c, d, z, f], _, h0 =>
        have hz : z = 0 := by simpa using h0
        subst hz
        rfl
  · intro h op hop
    cases op with
    | sendBytesLong => exact ⟨.inr rfl, rfl⟩
    | poke i v => exact absurd rfl (hop i v)
    | _ =>
      simp only [HalfAPDU.step]
      split
      · exact ⟨.inl rfl, rfl⟩
      · exact ⟨.inr rfl, rfl⟩

/-! ### C81: what each call on the half-made object raises -/

/-- Spec: the exception of a call on the half-made object; `opened` says whether `setOutgoing` (alone or in `setOutgoingAndSend`) was called before. A
store into the buffer is not a call. -/
def halfRaises (opened : Bool) : APDU.Op → Option Err
  | .setIncomingAndReceive | .setOutgoing | .setOutgoingAndSend _ _ => some (if opened then .apdu 2 else .attributeError)
  | .setOutgoingLength _ | .sendBytes _ _ => some (if opened then .attributeError else .apdu 2)
  | .receiveBytes _ => some (.apdu 2)
  | .sendBytesLong _ _ _ => some .attributeError
  | .poke _ _ => none

/-- Spec: the calls after which the object counts as sending. -/
def opens : APDU.Op → Bool
  | .setOutgoing | .setOutgoingAndSend _ _ => true
  | _ => false

/-- Calls on the half-made object, one after the other. -/
def halfRun (h : HalfAPDU) : List APDU.Op → HalfAPDU
  | [] => h
  | op :: ops => halfRun (h.step op).2 ops

theorem half_step (opened : Bool) (b : List Int) (op : APDU.Op) :
    (∃ b', (HalfAPDU.step ⟨b, if opened then 3 else 0⟩ op).2 = ⟨b', if opened || opens op then 3 else 0⟩ ∧ ((∀ i v, op ≠ .poke i v) → b' = b)) ∧
    (∀ e, halfRaises opened op = some e → (HalfAPDU.step ⟨b, if opened then 3 else 0⟩ op).1 = .error e) ∧
    (∀ i v, op = .poke i v →
      (∀ b', set b i v = .ok b' → (HalfAPDU.step ⟨b, if opened then 3 else 0⟩ op).1 = .ok 0 ∧ (HalfAPDU.step ⟨b, if opened then 3 else 0⟩ op).2.buffer = b') ∧
      (∀ e, set b i v = .error e → (HalfAPDU.step ⟨b, if opened then 3 else 0⟩ op).1 = .error e ∧ (HalfAPDU.step ⟨b, if opened then 3 else 0⟩ op).2.buffer = b)) := by
  cases op with
  | poke i v =>
    simp only [HalfAPDU.step, halfRaises, opens, Bool.or_false]
    cases hs : set b i v <;> cases opened <;> simp [hs]
    all_goals (intro i' v' h1 h2; subst h1; subst h2; simp [hs])
  | _ =>
    cases opened <;>
      simp [HalfAPDU.step, halfRaises, opens, APDU.STATE_INITIAL, APDU.STATE_PARTIAL_INCOMING, APDU.STATE_OUTGOING, APDU.ILLEGAL_USE]

theorem half_run (ops : List APDU.Op) : ∀ (opened : Bool) (b : List Int),
    ∃ b', halfRun ⟨b, if opened then 3 else 0⟩ ops = ⟨b', if opened || ops.any opens then 3 else 0⟩ := by
  induction ops with
  | nil => intro opened b; exact ⟨b, by simp [halfRun]⟩
  | cons op ops ih =>
    intro opened b
    obtain ⟨⟨b', h, _⟩, _, _⟩ := half_step opened b op
    obtain ⟨b'', h2⟩ := ih (opened || opens op) b'
    refine ⟨b'', ?_⟩
    rw [halfRun, h, h2, List.any_cons, Bool.or_assoc]

theorem half_world (ss : List World.Step) : ∀ {w : World} {i r : Nat} {h : HalfAPDU}, w.objs[i]? = some (r, .half h) →
    (w.run ss).objs[i]? = some (r, .half (halfRun h (callsOn i ss))) := by
  induction ss with
  | nil => intro w i r h hi; exact hi
  | cons s ss ih =>
    intro w i r h hi
    have hil : i < w.objs.length := by
      by_cases hlt : i < w.objs.length
      · exact hlt
      · rw [List.getElem?_eq_none (by omega)] at hi; cases hi
    cases s with
    | construct q =>
      show ((w.construct q).2.run ss).objs[i]? = _
      refine ih ?_
      rcases construct_cases w q with ⟨_, h1⟩ | ⟨_, _, _, _, o, hobj, _⟩
      · rw [h1]; exact hi
      · rw [hobj, List.getElem?_append_left hil]; exact hi
    | write q l => exact ih hi
    | call j op =>
      by_cases hj : j = i
      · subst hj
        show ((w.call j op).2.run ss).objs[j]? = _
        rw [show callsOn j (.call j op :: ss) = op :: callsOn j ss by simp [callsOn]]
        show _ = some (r, APDUObj.half (halfRun (h.step op).2 (callsOn j ss)))
        refine ih ?_
        unfold World.call
        rw [hi]
        simp only
        rw [List.getElem?_set_self hil]
      · show ((w.call j op).2.run ss).objs[i]? = _
        rw [show callsOn i (.call j op :: ss) = callsOn i ss by simp [callsOn, hj]]
        refine ih ?_
        unfold World.call
        split
        · exact hi
        · simp only; rw [List.getElem?_set_ne hj]; exact hi
        · simp only; rw [List.getElem?_set_ne hj]; exact hi

/-- C81. A half-made object stays half-made: whatever the program goes on to do with this and other objects, the next call on it raises what
`halfRaises` says: AttributeError where a missing attribute is needed, ILLEGAL_USE where the phase forbids the call. -/
theorem C81_half_calls (w : World) (r : Nat) (h6 : (w.lists r).length = 6) (h0 : (w.lists r)[4]? = some 0) (ss : List World.Step) (op : APDU.Op) (e : Err)
    (he : halfRaises ((callsOn w.objs.length ss).any opens) op = some e) :
    (((w.construct r).2.run ss).call w.objs.length op).1 = .error e := by
  obtain ⟨_, _, b, hv, _⟩ := C81_half_made w r h6 h0
  have hobj : ∃ q, (w.construct r).2.objs[w.objs.length]? = some (q, .half ⟨b, 0⟩) := by
    unfold World.view at hv
    split at hv
    · cases hv
    · rename_i q x hx; injection hv with hv; injection hv with hv; subst hv; exact ⟨q, hx⟩
    · cases hv
  obtain ⟨q, hq⟩ := hobj
  have hr := half_world ss hq
  obtain ⟨b', h⟩ := half_run (callsOn w.objs.length ss) false b
  simp only [Bool.false_eq_true, if_false, Bool.false_or] at h
  rw [h] at hr
  unfold World.call
  rw [hr]
  exact (half_step _ b' op).2.1 e he

/-- C81. Before the first APDU of a program the static functions raise AttributeError: there is no current object. -/
theorem C81_none (lists : Nat → List Int) (ss : List World.Step) (h : constructions ((World.init lists).outcomes ss) = 0) :
    ((World.init lists).run ss).getCurrentAPDUBuffer = .error .attributeError ∧ ((World.init lists).run ss).getCLAChannel = .error .attributeError := by
  have hc := (C81_current lists ss)
  have h0 : ((World.init lists).run ss).current = none := by
    rw [h] at hc
    simpa [World.getCurrentAPDU] using hc
  simp [World.getCLAChannel, World.getCurrentAPDUBuffer, h0]

example : ((((World.init (fun _ => [0, 1, 2, 3, 0, 9])).construct 0).2.run
      [.call 0 .setIncomingAndReceive, .construct 0, .call 0 (.poke 1 9), .call 0 .setOutgoing, .call 1 (.sendBytes 0 1)]).call 0 (.setOutgoingLength 3)).1 =
    .error .attributeError ∧
    halfRaises ((callsOn 0 [.call 0 .setIncomingAndReceive, .construct 0, .call 0 (.poke 1 9), .call 0 .setOutgoing, .call 1 (.sendBytes 0 1)]).any opens)
      (.setOutgoingLength 3) = some .attributeError := by decide +kernel
example : constructions ((World.init (fun _ => [1, 2])).outcomes [.construct 0, .write 0 [1, 2, 3]]) = 0 := by decide

/-! A program with two APDUs and a third list: the first answers after the second was made. -/
example : ((World.init (fun q => if q = 0 then [0x80, 1, 2, 3, 2, 7, 8] else [1, 2, 3, 4])).run
      [.construct 0, .construct 1, .call 0 .setIncomingAndReceive, .call 0 (.setOutgoingAndSend 5 2), .construct 5]).current = some 2 ∧
    ((World.init (fun q => if q = 0 then [0x80, 1, 2, 3, 2, 7, 8] else [1, 2, 3, 4])).run
      [.construct 0, .construct 1, .call 0 .setIncomingAndReceive, .call 0 (.setOutgoingAndSend 5 2)]).lists 0 = [7, 8, 2, 3, 2, 7, 8] := by
  decide +kernel

/-! Sharing: a second object on the same list receives the response of the first instead of the command's data. -/
example : (answersOn 1 ((World.init (fun _ => [0, 1, 2, 3, 2, 7, 8])).outcomes
      [.construct 0, .construct 0, .call 0 (.poke 0 99), .call 0 (.setOutgoingAndSend 0 7), .call 1 .setIncomingAndReceive])).map Prod.snd = [.ok 2] ∧
    (((World.init (fun _ => [0, 1, 2, 3, 2, 7, 8])).run
      [.construct 0, .construct 0, .call 0 (.poke 5 99), .call 0 (.setOutgoingAndSend 0 7), .call 1 .setIncomingAndReceive]).bufferOf 1).map (·.take 7) =
      some [0, 1, 2, 3, 2, 99, 0] := by
  decide +kernel

end Verif.Props
