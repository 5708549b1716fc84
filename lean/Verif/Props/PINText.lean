import Verif.Model.PINText
import Verif.Props.PINCells
/-! C129: PINs given as Python 2 `unicode` text, or as lists with characters in them. -/
namespace Verif.Props
open Verif.Py Verif.Model Verif.Spec
namespace PINText
open Verif.Model.PINText

/-- The number of a cell: a number as it is, a character by its code. -/
def codeOf : Cell → Int
  | .num v => v
  | .chr c => c

/-- The cells an argument can put in a PIN. -/
def cellsOf : Arg → List Cell
  | .str codes => codes.map .num
  | .seq cells => cells

/-- The cells the arguments of a call can put in a PIN. -/
def opCells : Op → List Cell
  | .check a _ _ => cellsOf a
  | .update a _ _ => cellsOf a
  | _ => []

/-- The argument with numbers for characters. -/
def argCodes : Arg → PinArg
  | .str codes => .str codes
  | .seq cells => .arr (cells.map codeOf)

/-- The call with numbers for characters. -/
def opCodes : Op → OwnerPIN.Op
  | .check a o l => .check (argCodes a) o l
  | .update a o l => .update (argCodes a) o l
  | .reset => .reset
  | .resetAndUnblock => .resetAndUnblock
  | .setValidatedFlag v => .setValidatedFlag v

/-- The object with numbers for characters. -/
def objCodes (p : Obj) : OwnerPIN :=
  { trylimit := p.trylimit, triesremaining := p.triesremaining, maxpinsize := p.maxpinsize, pin := p.pin.map codeOf, validated := p.validated }

theorem get_map {α β} (f : α → β) (l : List α) (i : Int) : get (l.map f) i = (get l i).map f := by
  unfold Py.get
  rw [List.length_map]
  cases idx l.length i with
  | none => rfl
  | some k => simp only [List.getElem?_map]; cases l[k]? <;> rfl

theorem set_map {α β} (f : α → β) (l : List α) (i : Int) (v : α) : set (l.map f) i (f v) = (set l i v).map (List.map f) := by
  unfold Py.set
  rw [List.length_map]
  cases idx l.length i with
  | none => rfl
  | some k => simp [List.map_set, Except.map]

theorem get_mem {α} {l : List α} {i : Int} {v : α} (h : get l i = .ok v) : v ∈ l := by
  unfold Py.get at h
  cases e : idx l.length i with
  | none => simp [e] at h
  | some k =>
    simp only [e] at h
    cases e2 : l[k]? with
    | none => simp [e2] at h
    | some w => simp only [e2] at h; injection h with h; subst h; exact List.mem_of_getElem? e2

theorem set_all {α} {P : α → Prop} {l b : List α} {i : Int} {v : α} (hl : ∀ x ∈ l, P x) (hv : P v) (h : set l i v = .ok b) : ∀ x ∈ b, P x := by
  unfold Py.set at h
  cases e : idx l.length i with
  | none => simp [e] at h
  | some k =>
    simp only [e] at h; injection h with h; subst h
    intro x hx
    rcases List.mem_or_eq_of_mem_set hx with hx | rfl
    · exact hl x hx
    · exact hv

/-- The result of a loop with numbers for characters. -/
def resCodes (r : Res (List Cell) Unit) : Res (List Int) Unit := (r.1, r.2.map codeOf)

theorem strLoop_codes (cs : List Int) (buf : List Cell) (i : Nat) : OwnerPIN.strLoop (buf.map codeOf) i cs = resCodes (strLoop buf i cs) := by
  induction cs generalizing buf i with
  | nil => rfl
  | cons c cs ih =>
    have := set_map codeOf buf i (.num c)
    rw [show codeOf (.num c) = c from rfl] at this
    simp only [OwnerPIN.strLoop, strLoop, this]
    cases set buf i (.num c) with
    | error e => rfl
    | ok b => exact ih b (i + 1)

theorem zeroLoop_codes (n : Nat) (buf : List Cell) (i : Int) : OwnerPIN.zeroLoop (buf.map codeOf) i n = resCodes (zeroLoop buf i n) := by
  induction n generalizing buf i with
  | zero => rfl
  | succ n ih =>
    have := set_map codeOf buf i (.num 0)
    rw [show codeOf (.num 0) = 0 from rfl] at this
    simp only [OwnerPIN.zeroLoop, zeroLoop, this]
    cases set buf i (.num 0) with
    | error e => rfl
    | ok b => exact ih b (i + 1)

theorem arrLoop_codes (pin : List Cell) (off : Int) (n : Nat) (buf : List Cell) (j : Nat) :
    OwnerPIN.arrLoop (pin.map codeOf) off (buf.map codeOf) j n = resCodes (arrLoop pin off buf j n) := by
  induction n generalizing buf j with
  | zero => rfl
  | succ n ih =>
    simp only [OwnerPIN.arrLoop, arrLoop, get_map]
    cases get pin (off + j) with
    | error e => rfl
    | ok v =>
      simp only [Except.map, set_map]
      cases set buf (off - (off + j)) v with
      | error e => rfl
      | ok b => exact ih b (j + 1)

theorem fill_codes (buf : List Cell) (a : Arg) (off len m : Int) :
    OwnerPIN.fill (buf.map codeOf) (argCodes a) off len m = resCodes (fill buf a off len m) := by
  cases a with
  | str codes =>
    simp only [OwnerPIN.fill, fill, argCodes, strLoop_codes]
    generalize strLoop buf 0 _ = r
    obtain ⟨r, b⟩ := r
    cases r with
    | error e => rfl
    | ok u => exact zeroLoop_codes _ _ _
  | seq cells =>
    simp only [OwnerPIN.fill, fill, argCodes, arrLoop_codes]
    generalize arrLoop cells off buf 0 _ = r
    obtain ⟨r, b⟩ := r
    cases r with
    | error e => rfl
    | ok u => exact zeroLoop_codes _ _ _

theorem strLoop_all {P : Cell → Prop} (cs : List Int) (buf : List Cell) (i : Nat) (hb : ∀ x ∈ buf, P x) (hc : ∀ c ∈ cs, P (.num c)) :
    ∀ x ∈ (strLoop buf i cs).2, P x := by
  induction cs generalizing buf i with
  | nil => exact hb
  | cons c cs ih =>
    simp only [strLoop]
    cases e : set buf i (.num c) with
    | error e => exact hb
    | ok b => exact ih b (i + 1) (set_all hb (hc c (by simp)) e) (fun d hd => hc d (by simp [hd]))

theorem zeroLoop_all {P : Cell → Prop} (h0 : P (.num 0)) (n : Nat) (buf : List Cell) (i : Int) (hb : ∀ x ∈ buf, P x) : ∀ x ∈ (zeroLoop buf i n).2, P x := by
  induction n generalizing buf i with
  | zero => exact hb
  | succ n ih =>
    simp only [zeroLoop]
    cases e : set buf i (.num 0) with
    | error e => exact hb
    | ok b => exact ih b (i + 1) (set_all hb h0 e)

theorem arrLoop_all {P : Cell → Prop} (pin : List Cell) (hp : ∀ x ∈ pin, P x) (off : Int) (n : Nat) (buf : List Cell) (j : Nat) (hb : ∀ x ∈ buf, P x) :
    ∀ x ∈ (arrLoop pin off buf j n).2, P x := by
  induction n generalizing buf j with
  | zero => exact hb
  | succ n ih =>
    simp only [arrLoop]
    cases e : get pin (off + j) with
    | error e => exact hb
    | ok v =>
      simp only
      cases e2 : set buf (off - (off + j)) v with
      | error e => exact hb
      | ok b => exact ih b (j + 1) (set_all hb (hp v (get_mem e)) e2)

theorem slice_mem {α} {l : List α} {a b : Int} {x : α} (h : x ∈ slice l a b) : x ∈ l :=
  List.mem_of_mem_drop (List.mem_of_mem_take h)

theorem fill_all {P : Cell → Prop} (h0 : P (.num 0)) (buf : List Cell) (a : Arg) (off len m : Int) (hb : ∀ x ∈ buf, P x) (ha : ∀ x ∈ cellsOf a, P x) :
    ∀ x ∈ (fill buf a off len m).2, P x := by
  cases a with
  | str codes =>
    simp only [fill]
    have h := strLoop_all (slice codes off (off + len)) buf 0 hb fun c hc => ha _ (List.mem_map_of_mem (slice_mem hc))
    revert h
    generalize strLoop buf 0 _ = r
    obtain ⟨r, b⟩ := r
    intro h
    cases r with
    | error e => exact h
    | ok u => exact zeroLoop_all h0 _ _ _ h
  | seq cells =>
    simp only [fill]
    have h := arrLoop_all cells ha off (rangeLen len) buf 0 hb
    revert h
    generalize arrLoop cells off buf 0 _ = r
    obtain ⟨r, b⟩ := r
    intro h
    cases r with
    | error e => exact h
    | ok u => exact zeroLoop_all h0 _ _ _ h

theorem argCodes_length (a : Arg) : (argCodes a).length = a.length := by cases a <;> simp [argCodes, PinArg.length, Arg.length]

theorem map_inj_on {P : Cell → Prop} (inj : ∀ x y, P x → P y → codeOf x = codeOf y → x = y) (l k : List Cell) (hl : ∀ x ∈ l, P x) (hk : ∀ x ∈ k, P x) :
    l.map codeOf = k.map codeOf ↔ l = k := by
  refine ⟨?_, fun h => h ▸ rfl⟩
  induction l generalizing k with
  | nil => cases k <;> simp
  | cons x l ih =>
    cases k with
    | nil => simp
    | cons y k =>
      simp only [List.map_cons, List.cons.injEq]
      rintro ⟨h1, h2⟩
      exact ⟨inj x y (hl x (by simp)) (hk y (by simp)) h1, ih k (fun z hz => hl z (by simp [hz])) (fun z hz => hk z (by simp [hz])) h2⟩

theorem fresh_codes (m : Int) : (fresh m (Cell.num 0)).map codeOf = fresh m 0 := by simp [fresh, codeOf]

theorem check_codes {P : Cell → Prop} (inj : ∀ x y, P x → P y → codeOf x = codeOf y → x = y) (h0 : P (.num 0)) (p : Obj) (hp : ∀ x ∈ p.pin, P x)
    (a : Arg) (ha : ∀ x ∈ cellsOf a, P x) (off len : Int) :
    (objCodes p).check (argCodes a) off len = ((check p a off len).1, objCodes (check p a off len).2) := by
  have hf := fill_codes (fresh p.maxpinsize (.num 0)) a off len p.maxpinsize
  have hall := fill_all h0 (fresh p.maxpinsize (.num 0)) a off len p.maxpinsize (by intro x hx; rw [List.eq_of_mem_replicate hx]; exact h0) ha
  rw [fresh_codes] at hf
  simp only [OwnerPIN.check, check, argCodes_length, show (objCodes p).triesremaining = p.triesremaining from rfl,
    show (objCodes p).maxpinsize = p.maxpinsize from rfl, hf]
  by_cases h1 : p.triesremaining ≤ 0
  · simp only [if_pos h1]; rfl
  · simp only [if_neg h1]
    by_cases h2 : (a.length : Int) < off ∨ (a.length : Int) < off + len
    · simp only [if_pos h2]; rfl
    · simp only [if_neg h2]
      revert hall
      generalize fill (fresh p.maxpinsize (.num 0)) a off len p.maxpinsize = r
      obtain ⟨r, b⟩ := r
      intro hall
      cases r with
      | error e => rfl
      | ok u =>
        have := map_inj_on inj p.pin b hp hall
        simp only [resCodes, show (objCodes p).pin = p.pin.map codeOf from rfl, Ne, this]
        by_cases h3 : p.pin = b
        · simp only [h3, not_true, if_false]; rfl
        · simp only [h3, not_false_eq_true, if_true]; rfl

theorem update_codes (p : Obj) (a : Arg) (off len : Int) :
    (objCodes p).update (argCodes a) off len = ((update p a off len).1, objCodes (update p a off len).2) := by
  have hf := fill_codes p.pin a off len p.maxpinsize
  simp only [OwnerPIN.update, update, argCodes_length, show (objCodes p).pin = p.pin.map codeOf from rfl,
    show (objCodes p).maxpinsize = p.maxpinsize from rfl, hf]
  by_cases h1 : len > p.maxpinsize
  · simp only [if_pos h1]
  · simp only [if_neg h1]
    by_cases h2 : len + off > (a.length : Int)
    · simp only [if_pos h2]
    · simp only [if_neg h2]
      generalize fill p.pin a off len p.maxpinsize = r
      obtain ⟨r, b⟩ := r
      cases r <;> rfl

theorem step_all {P : Cell → Prop} (h0 : P (.num 0)) (p : Obj) (hp : ∀ x ∈ p.pin, P x) (op : Op)
    (ho : ∀ a o l, op = .update a o l → ∀ x ∈ cellsOf a, P x) : ∀ x ∈ (step p op).2.pin, P x := by
  cases op with
  | check a o l =>
    have : (check p a o l).2.pin = p.pin := by
      simp only [check]
      split
      · rfl
      · split
        · rfl
        · split
          · rfl
          · split <;> rfl
    simp only [step, this]; exact hp
  | update a o l =>
    simp only [step, update]
    have h := fill_all h0 p.pin a o l p.maxpinsize hp (ho a o l rfl)
    split
    · exact hp
    · split
      · exact hp
      · split
        · next e => rw [e] at h; exact h
        · next e => rw [e] at h; exact h
  | reset => simp only [step, reset]; split <;> exact hp
  | resetAndUnblock => exact hp
  | setValidatedFlag v => exact hp

theorem run_all {P : Cell → Prop} (h0 : P (.num 0)) (ops : List Op) (p : Obj) (hp : ∀ x ∈ p.pin, P x)
    (ho : ∀ a o l, .update a o l ∈ ops → ∀ x ∈ cellsOf a, P x) : ∀ x ∈ (run p ops).pin, P x := by
  induction ops generalizing p with
  | nil => exact hp
  | cons op ops ih =>
    refine ih _ (step_all h0 p hp op fun a o l e => ho a o l (by simp [e])) fun a o l hm => ho a o l (by simp [hm])

theorem init_all {P : Cell → Prop} (h0 : P (.num 0)) (limit m : Int) : ∀ x ∈ (init limit m).pin, P x := by
  intro x hx; rw [List.eq_of_mem_replicate hx]; exact h0

/-- What the caller of an `OwnerPIN` of numbers sees. -/
def numOuts (p : OwnerPIN) : List OwnerPIN.Op → List OwnerPIN.Out
  | [] => []
  | op :: ops => (OwnerPIN.step p op).1 :: numOuts (OwnerPIN.step p op).2 ops

theorem outs_codes {P : Cell → Prop} (inj : ∀ x y, P x → P y → codeOf x = codeOf y → x = y) (h0 : P (.num 0)) (ops : List Op) (p : Obj)
    (hp : ∀ x ∈ p.pin, P x) (ho : ∀ op ∈ ops, ∀ x ∈ opCells op, P x) :
    outs p ops = numOuts (objCodes p) (ops.map opCodes) ∧ objCodes (run p ops) = (objCodes p).run (ops.map opCodes) := by
  induction ops generalizing p with
  | nil => exact ⟨rfl, rfl⟩
  | cons op ops ih =>
    have hs : OwnerPIN.step (objCodes p) (opCodes op) = ((step p op).1, objCodes (step p op).2) := by
      cases op with
      | check a o l => simp only [OwnerPIN.step, opCodes, step, check_codes inj h0 p hp a (ho (.check a o l) (by simp))]
      | update a o l => simp only [OwnerPIN.step, opCodes, step, update_codes]
      | reset =>
        simp only [OwnerPIN.step, opCodes, step, OwnerPIN.reset, reset, show (objCodes p).validated = p.validated from rfl]
        split <;> rfl
      | resetAndUnblock => rfl
      | setValidatedFlag v => rfl
    have hp' : ∀ x ∈ (step p op).2.pin, P x := step_all h0 p hp op fun a o l e => by
      have := ho op (by simp); rw [e] at this; exact this
    obtain ⟨h1, h2⟩ := ih _ hp' fun o hm => ho o (by simp [hm])
    refine ⟨?_, ?_⟩
    · simp only [outs, List.map_cons, numOuts, hs, h1]
    · simpa only [run, OwnerPIN.run, List.foldl_cons, List.map_cons, hs] using h2


/-- The calls' arguments keep text and numbers apart: no character presented has the code of a number presented, nor the code 0, with which PINs are padded. -/
def Apart (ops : List Op) : Prop :=
  ∀ c, (∃ op ∈ ops, Cell.chr c ∈ opCells op) → c ≠ 0 ∧ ∀ op ∈ ops, Cell.num c ∉ opCells op

/-- **C129** (text is like its codes). As long as text and numbers are kept apart, an object answers every call of any history as it does when the code of each character
is given for the character, as an element of an array; so everything proved of PINs given as arrays (C18, C89, C93) holds of text. -/
theorem C129_like_codes (limit m : Int) (ops : List Op) (h : Apart ops) :
    outs (init limit m) ops = numOuts (OwnerPIN.init limit m) (ops.map opCodes) ∧
    objCodes (run (init limit m) ops) = (OwnerPIN.init limit m).run (ops.map opCodes) := by
  have e : objCodes (init limit m) = OwnerPIN.init limit m := by simp [objCodes, init, OwnerPIN.init, fresh_codes]
  rw [← e]
  let P : Cell → Prop := fun x => x = .num 0 ∨ ∃ op ∈ ops, x ∈ opCells op
  refine outs_codes (P := P) ?_ (Or.inl rfl) ops _ (init_all (Or.inl rfl) limit m) fun op ho x hx => Or.inr ⟨op, ho, hx⟩
  intro x y hx hy hxy
  have mixed : ∀ (v : Int) (c : Nat), P (.num v) → P (.chr c) → v ≠ c := by
    intro v c hv hc
    have hc : ∃ op ∈ ops, Cell.chr c ∈ opCells op := by
      rcases hc with hc | hc
      · cases hc
      · exact hc
    obtain ⟨c0, cn⟩ := h c hc
    rcases hv with hv | ⟨op, ho, hv⟩
    · injection hv with hv; omega
    · intro q; subst q; exact cn op ho hv
  cases x with
  | num v =>
    cases y with
    | num w => simpa [codeOf] using hxy
    | chr c => exact absurd hxy (mixed v c hx hy)
  | chr c =>
    cases y with
    | num w => exact absurd hxy.symm (mixed w c hy hx)
    | chr d =>
      have : c = d := by simp only [codeOf] at hxy; omega
      rw [this]

/-- **C129** (what text accepts). Of a PIN set as text of `n` characters on a new object, presentations of `n` characters are accepted exactly when they agree in the first
character and in those after position maxPINSize - n: a wrong PIN is accepted when it differs only between. -/
theorem C129_accept_iff (limit : Int) (hl : 0 < limit) (m n : Nat) (a b : List Nat) (ha0 : 0 ∉ a) (hb0 : 0 ∉ b) (ao bo : Nat)
    (hn0 : 0 < n) (hn : n ≤ m) (ha : ao + n ≤ a.length) (hb : bo + n ≤ b.length) :
    ∃ r, (check (update (init limit m) (.seq (a.map .chr)) ao n).2 (.seq (b.map .chr)) bo n).1 = .ok r ∧
      (r = true ↔ (a[ao]? = b[bo]? ∧ ∀ j, m - n < j → j < n → a[ao + j]? = b[bo + j]?)) := by
  have hm : ∀ l : List Nat, (l.map Cell.chr).map codeOf = l.map (fun c : Nat => (c : Int)) := by
    intro l; rw [List.map_map]; rfl
  have hi : ∀ i j : Nat, (a.map (fun c : Nat => (c : Int)))[i]? = (b.map (fun c : Nat => (c : Int)))[j]? ↔ a[i]? = b[j]? := by
    intro i j
    simp only [List.getElem?_map]
    cases a[i]? <;> cases b[j]? <;> simp <;> omega
  obtain ⟨r, h1, h2⟩ := C18_accept_iff limit hl m n (a.map (fun c : Nat => (c : Int))) (b.map (fun c : Nat => (c : Int))) ao bo hn0 hn (by simpa using ha) (by simpa using hb)
  simp only [hi] at h2
  refine ⟨r, ?_, h2⟩
  have h := (C129_like_codes limit m [.update (.seq (a.map .chr)) ao n, .check (.seq (b.map .chr)) bo n] (by
    intro c hc
    have hz : c ∈ a ∨ c ∈ b := by simpa [opCells, cellsOf] using hc
    refine ⟨?_, by simp [opCells, cellsOf]⟩
    rintro rfl
    rcases hz with hz | hz
    · exact ha0 hz
    · exact hb0 hz)).1
  simp only [List.map_cons, List.map_nil, opCodes, argCodes, hm, outs, numOuts, step, OwnerPIN.step, List.cons.injEq, and_true,
    OwnerPIN.Out.checked.injEq] at h
  rw [h.2]; exact h1

/-- **C129** (the first character only). Of a PIN of at most half the maximum size, plus one half, only the first character counts. -/
theorem C129_first_only (limit : Int) (hl : 0 < limit) (m n : Nat) (a b : List Nat) (ha0 : 0 ∉ a) (hb0 : 0 ∉ b) (ao bo : Nat)
    (hn0 : 0 < n) (hn : 2 * n ≤ m + 1) (ha : ao + n ≤ a.length) (hb : bo + n ≤ b.length) :
    (check (update (init limit m) (.seq (a.map .chr)) ao n).2 (.seq (b.map .chr)) bo n).1 = .ok true ↔ a[ao]? = b[bo]? := by
  obtain ⟨r, h1, h2⟩ := C129_accept_iff limit hl m n a b ha0 hb0 ao bo hn0 (by omega) ha hb
  rw [h1]
  constructor
  · intro h; injection h with h; exact (h2.mp h).1
  · intro h; rw [h2.mpr ⟨h, fun j _ _ => by omega⟩]

/-- A character, not a number. -/
def IsChr (x : Cell) : Prop := ∃ c, x = .chr c

theorem set_zero {l b : List Cell} {i : Int} {v : Cell} (h : set l i v = .ok b) : b[0]? = some v ∨ b[0]? = l[0]? := by
  unfold Py.set at h
  cases e : idx l.length i with
  | none => simp [e] at h
  | some k =>
    simp only [e] at h; injection h with h; subst h
    rw [List.getElem?_set]
    by_cases hk : k = 0
    · subst hk
      by_cases hl : 0 < l.length
      · left; simp [hl]
      · right; cases l <;> simp_all
    · right; simp [hk]

theorem zeroLoop_zero (n : Nat) (buf b : List Cell) (i : Int) (hi : 0 < i) (h : zeroLoop buf i n = (.ok (), b)) : b[0]? = buf[0]? := by
  induction n generalizing buf i with
  | zero => simp only [zeroLoop, Prod.mk.injEq] at h; rw [h.2]
  | succ n ih =>
    simp only [zeroLoop] at h
    cases e : set buf i (.num 0) with
    | error e2 => simp [e] at h
    | ok b2 =>
      simp only [e] at h
      rw [ih b2 (i + 1) (by omega) h]
      unfold Py.set at e
      cases e3 : idx buf.length i with
      | none => simp [e3] at e
      | some k =>
        simp only [e3] at e; injection e with e; subst e
        have : k ≠ 0 := by
          unfold idx at e3
          intro q; subst q
          revert e3
          repeat' split
          all_goals simp
          all_goals omega
        simp [List.getElem?_set, this]

theorem arrLoop_zero (pin : List Cell) (hp : ∀ x ∈ pin, IsChr x) (off : Int) (n : Nat) (buf b : List Cell) (j : Nat)
    (hb : j = 0 ∧ 0 < n ∨ ∃ x, buf[0]? = some x ∧ IsChr x) (h : arrLoop pin off buf j n = (.ok (), b)) : ∃ x, b[0]? = some x ∧ IsChr x := by
  induction n generalizing buf j with
  | zero =>
    simp only [arrLoop, Prod.mk.injEq] at h
    rcases hb with hb | hb
    · omega
    · rwa [← h.2]
  | succ n ih =>
    simp only [arrLoop] at h
    cases e : get pin (off + j) with
    | error e2 => simp [e] at h
    | ok v =>
      simp only [e] at h
      cases e2 : set buf (off - (off + j)) v with
      | error e3 => simp [e2] at h
      | ok b2 =>
        simp only [e2] at h
        refine ih b2 (j + 1) (Or.inr ?_) h
        rcases set_zero e2 with q | q
        · exact ⟨v, q, hp v (get_mem e)⟩
        · rcases hb with ⟨hj, _⟩ | hb
          · subst hj
            refine ⟨v, ?_, hp v (get_mem e)⟩
            have e4 : off - (off + ((0 : Nat) : Int)) = 0 := by omega
            rw [e4] at e2
            unfold Py.set at e2
            cases e3 : idx buf.length 0 with
            | none => simp [e3] at e2
            | some k =>
              simp only [e3] at e2; injection e2 with e2; subst e2
              unfold idx at e3
              have : k = 0 ∧ 0 < buf.length := by
                revert e3
                repeat' split
                all_goals simp
                all_goals omega
              simp [List.getElem?_set, this]
          · rw [q]; exact hb

/-- A fill with text of at least one character leaves a character in the first cell. -/
theorem fill_chr (buf : List Cell) (cells : List Cell) (hc : ∀ x ∈ cells, IsChr x) (off len m : Int) (hl : 0 < len) (b : List Cell)
    (h : fill buf (.seq cells) off len m = (.ok (), b)) : ∃ x, b[0]? = some x ∧ IsChr x := by
  simp only [fill] at h
  cases e : arrLoop cells off buf 0 (rangeLen len) with
  | mk r b2 =>
    rw [e] at h
    cases r with
    | error e => simp at h
    | ok u =>
      have h2 := arrLoop_zero cells hc off _ buf b2 0 (Or.inl ⟨rfl, by simp [rangeLen]; omega⟩) e
      rw [zeroLoop_zero _ _ _ _ hl h]; exact h2

/-- A call that sets no PIN. -/
def SetsNothing (op : Op) : Prop := ∀ a o l, op ≠ .update a o l

theorem check_true {p : Obj} {a : Arg} {off len : Int} (h : (check p a off len).1 = .ok true) :
    fill (fresh p.maxpinsize (.num 0)) a off len p.maxpinsize = (.ok (), p.pin) := by
  revert h
  simp only [check]
  split
  · simp
  · split
    · simp
    · cases e : fill (fresh p.maxpinsize (.num 0)) a off len p.maxpinsize with
      | mk r b =>
        cases r with
        | error e => simp
        | ok u =>
          simp only
          by_cases q : p.pin = b
          · simp [q]
          · simp [q]

theorem run_keeps (mid : List Op) (hm : ∀ op ∈ mid, SetsNothing op) (p : Obj) : (run p mid).pin = p.pin := by
  induction mid generalizing p with
  | nil => rfl
  | cons op mid ih =>
    simp only [run, List.foldl_cons]
    refine (ih (fun o ho => hm o (by simp [ho])) _).trans ?_
    cases op with
    | check a o l =>
      simp only [step, check]
      split
      · rfl
      · split
        · rfl
        · split
          · rfl
          · split <;> rfl
    | update a o l => exact absurd rfl (hm _ (by simp) a o l)
    | reset => simp only [step, reset]; split <;> rfl
    | resetAndUnblock => rfl
    | setValidatedFlag v => rfl

theorem run_append (p : Obj) (a b : List Op) : run p (a ++ b) = run (run p a) b := by simp [run, List.foldl_append]

/-- The numbers, not characters. -/
def NoChr (a : Arg) : Prop := ∀ x ∈ cellsOf a, ¬ IsChr x

/-- **C129** (a PIN set as text). After an accepted update with text, of any length above 0 and at any offset, and any calls that set no PIN, no presentation of a `str` or
an array of numbers is accepted, at any offset and length: not even the `str` of the same characters. -/
theorem C129_text_set (limit m : Int) (pre mid : List Op) (text : List Cell) (ht : ∀ x ∈ text, IsChr x) (off n : Int) (hn : 0 < n)
    (hu : (update (run (init limit m) pre) (.seq text) off n).1 = .ok ()) (hm : ∀ op ∈ mid, SetsNothing op)
    (a : Arg) (ha : NoChr a) (o l : Int) :
    (check (run (init limit m) (pre ++ .update (.seq text) off n :: mid)) a o l).1 ≠ .ok true ∧
    (check (run (init limit m) (pre ++ .update (.seq text) off n :: mid)) a o l).2.validated = false := by
  have hpin : ∃ x, (run (init limit m) (pre ++ .update (.seq text) off n :: mid)).pin[0]? = some x ∧ IsChr x := by
    rw [run_append]
    have e : run (run (init limit m) pre) (.update (.seq text) off n :: mid) = run (update (run (init limit m) pre) (.seq text) off n).2 mid := rfl
    rw [e, run_keeps mid hm]
    revert hu
    simp only [update]
    split
    · simp
    · split
      · simp
      · cases e : fill (run (init limit m) pre).pin (.seq text) off n (run (init limit m) pre).maxpinsize with
        | mk r b =>
          cases r with
          | error e => simp
          | ok u => intro _; exact fill_chr _ text ht off n _ hn b e
  have h1 : (check (run (init limit m) (pre ++ .update (.seq text) off n :: mid)) a o l).1 ≠ .ok true := by
    intro h
    have hall := fill_all (P := fun x => ¬ IsChr x) (by rintro ⟨c, h⟩; cases h)
      (fresh (run (init limit m) (pre ++ .update (.seq text) off n :: mid)).maxpinsize (.num 0)) a o l
      (run (init limit m) (pre ++ .update (.seq text) off n :: mid)).maxpinsize
      (by intro x hx; rw [List.eq_of_mem_replicate hx]; rintro ⟨c, h⟩; cases h) ha
    rw [check_true h] at hall
    obtain ⟨x, hx, hc⟩ := hpin
    exact hall x (List.mem_of_getElem? hx) hc
  refine ⟨h1, ?_⟩
  revert h1
  generalize run (init limit m) (pre ++ .update (.seq text) off n :: mid) = p
  simp only [check]
  split
  · intro _; rfl
  · split
    · intro _; rfl
    · split
      · intro _; rfl
      · split
        · intro _; rfl
        · intro q; exact absurd rfl q

/-- **C129** (text presented). While every PIN was set with `str` or numbers (or none was set at all), no presentation of text of any length above 0 is accepted. -/
theorem C129_text_presented (limit m : Int) (ops : List Op) (ho : ∀ a o l, .update a o l ∈ ops → NoChr a) (text : List Cell)
    (ht : ∀ x ∈ text, IsChr x) (o l : Int) (hl : 0 < l) : (check (run (init limit m) ops) (.seq text) o l).1 ≠ .ok true := by
  intro h
  have h0 : ¬ IsChr (.num 0) := by rintro ⟨c, h⟩; cases h
  have hall := run_all (P := fun x => ¬ IsChr x) h0 ops (init limit m) (init_all h0 limit m) ho
  obtain ⟨x, hx, hc⟩ := fill_chr _ text ht o l _ hl _ (check_true h)
  exact hall x (List.mem_of_getElem? hx) hc

/-- What a try costs: an answer of False takes one try, when any was left. -/
theorem C129_costs (p : Obj) (a : Arg) (o l : Int) (ht : 0 < p.triesremaining) (h : (check p a o l).1 = .ok false) :
    (check p a o l).2.triesremaining = p.triesremaining - 1 := by
  revert h
  simp only [check]
  split
  · omega
  · split
    · intro _; rfl
    · split
      · simp
      · split
        · intro _; rfl
        · simp

theorem check_in_range (p : Obj) (m : Nat) (hm : p.maxpinsize = m) (ht : 0 < p.triesremaining) (a : Arg) (off n : Nat) (hn : n ≤ m) (ha : off + n ≤ a.length) :
    ∃ r, (check p a off n).1 = .ok r := by
  obtain ⟨b, hb, _⟩ := fill_pinCell m (fresh (m : Int) 0) (by simp [fresh, rangeLen]) [] (by
    intro i hi; simp [fresh, rangeLen, hi, pinCell]) (argCodes a) off n hn (by rw [argCodes_length]; exact ha)
  have hf := fill_codes (fresh (m : Int) (.num 0)) a off n m
  rw [fresh_codes, hb] at hf
  simp only [check, hm]
  rw [if_neg (by omega), if_neg (by omega)]
  cases e : fill (fresh (m : Int) (.num 0)) a off n m with
  | mk r b2 =>
    rw [e] at hf
    cases r with
    | error e => simp [resCodes] at hf
    | ok u =>
      simp only
      split
      · exact ⟨_, rfl⟩
      · exact ⟨_, rfl⟩

theorem step_max (p : Obj) (op : Op) : (step p op).2.maxpinsize = p.maxpinsize := by
  cases op with
  | check a o l => simp only [step, check]; repeat' split
                   all_goals rfl
  | update a o l => simp only [step, update]; repeat' split
                    all_goals rfl
  | reset => simp only [step, reset]; split <;> rfl
  | resetAndUnblock => rfl
  | setValidatedFlag v => rfl

theorem run_max (ops : List Op) (p : Obj) : (run p ops).maxpinsize = p.maxpinsize := by
  induction ops generalizing p with
  | nil => rfl
  | cons op ops ih => exact (ih _).trans (step_max p op)

/-- Presentations: an argument, an offset and a length. -/
def checks (l : List (Arg × Nat × Nat)) : List Op := l.map fun x => .check x.1 x.2.1 x.2.2

theorem all_refused (m : Nat) (l : List (Arg × Nat × Nat)) (p : Obj) (hm : p.maxpinsize = m) (hl : l.length ≤ p.triesremaining)
    (hr : ∀ x ∈ l, x.2.2 ≤ m ∧ x.2.1 + x.2.2 ≤ x.1.length)
    (hn : ∀ x ∈ l, ∀ mid, (∀ op ∈ mid, SetsNothing op) → (check (run p mid) x.1 x.2.1 x.2.2).1 ≠ .ok true) :
    outs p (checks l) = l.map (fun _ => .checked (.ok false)) ∧ (run p (checks l)).triesremaining = p.triesremaining - l.length := by
  induction l generalizing p with
  | nil => simp [checks, outs, run]
  | cons x l ih =>
    obtain ⟨h1, h2⟩ := hr x (by simp)
    have ht : 0 < p.triesremaining := by simp only [List.length_cons] at hl; omega
    obtain ⟨r, er⟩ := check_in_range p m hm ht x.1 x.2.1 x.2.2 h1 h2
    have hx : (check p x.1 x.2.1 x.2.2).1 = .ok false := by
      have := hn x (by simp) [] (by simp)
      rw [show run p [] = p from rfl, er] at this
      cases r with
      | false => exact er
      | true => exact absurd rfl this
    have hc := C129_costs p x.1 x.2.1 x.2.2 ht hx
    obtain ⟨i1, i2⟩ := ih (check p x.1 x.2.1 x.2.2).2 ((step_max p (.check x.1 x.2.1 x.2.2)).trans hm)
      (by simp only [List.length_cons] at hl; omega) (fun y hy => hr y (by simp [hy]))
      (fun y hy mid hmid => hn y (by simp [hy]) (.check x.1 x.2.1 x.2.2 :: mid) (by
        intro op ho
        rcases List.mem_cons.mp ho with rfl | ho
        · intro a o l q; cases q
        · exact hmid op ho))
    refine ⟨?_, ?_⟩
    · show OwnerPIN.Out.checked (check p x.1 x.2.1 x.2.2).1 :: outs (check p x.1 x.2.1 x.2.2).2 (checks l) = _
      rw [i1, hx]; rfl
    · show (run (check p x.1 x.2.1 x.2.2).2 (checks l)).triesremaining = _
      rw [i2, hc, List.length_cons]; omega

/-- **C129** (text blocks). Presentations of text to a PIN set with `str` or numbers, each of 1 to maxPINSize characters of its argument, are all answered False, and each
takes a try: as many as there are tries left block the PIN. -/
theorem C129_text_blocks (limit : Int) (m : Nat) (ops : List Op) (ho : ∀ a o l, .update a o l ∈ ops → NoChr a) (l : List (Arg × Nat × Nat))
    (ht : ∀ x ∈ l, ∃ t, x.1 = .seq t ∧ ∀ c ∈ t, IsChr c) (hr : ∀ x ∈ l, 0 < x.2.2 ∧ x.2.2 ≤ m ∧ x.2.1 + x.2.2 ≤ x.1.length)
    (hl : l.length ≤ (run (init limit m) ops).triesremaining) :
    outs (run (init limit m) ops) (checks l) = l.map (fun _ => .checked (.ok false)) ∧
    (run (run (init limit m) ops) (checks l)).triesremaining = (run (init limit m) ops).triesremaining - l.length := by
  refine all_refused m l _ (run_max ops _) hl (fun x hx => (hr x hx).2) fun x hx mid hmid => ?_
  obtain ⟨t, et, hc⟩ := ht x hx
  rw [← run_append, et]
  refine C129_text_presented limit m _ (fun a o k hm => ?_) t hc _ _ (by have := (hr x hx).1; omega)
  rcases List.mem_append.mp hm with hm | hm
  · exact ho a o k hm
  · exact absurd rfl (hmid _ hm a o k)

/-- **C129** (`str` blocks). The same of presentations of `str` or numbers to a PIN set with text. -/
theorem C129_str_blocks (limit : Int) (m : Nat) (pre : List Op) (text : List Cell) (ht : ∀ x ∈ text, IsChr x) (off n : Int) (hn : 0 < n)
    (hu : (update (run (init limit m) pre) (.seq text) off n).1 = .ok ()) (l : List (Arg × Nat × Nat)) (ha : ∀ x ∈ l, NoChr x.1)
    (hr : ∀ x ∈ l, x.2.2 ≤ m ∧ x.2.1 + x.2.2 ≤ x.1.length) (hl : l.length ≤ limit) :
    outs (run (init limit m) (pre ++ [.update (.seq text) off n])) (checks l) = l.map (fun _ => .checked (.ok false)) ∧
    (run (run (init limit m) (pre ++ [.update (.seq text) off n])) (checks l)).triesremaining = limit - l.length := by
  have step_lim : ∀ (p : Obj) (op : Op), (step p op).2.trylimit = p.trylimit := by
    intro p op
    cases op with
    | check a o l => simp only [step, check]; repeat' split
                     all_goals rfl
    | update a o l => simp only [step, update]; repeat' split
                      all_goals rfl
    | reset => simp only [step, reset]; split <;> rfl
    | resetAndUnblock => rfl
    | setValidatedFlag v => rfl
  have run_lim : ∀ (ops : List Op) (p : Obj), (run p ops).trylimit = p.trylimit := by
    intro ops
    induction ops with
    | nil => intro p; rfl
    | cons op ops ih => intro p; exact (ih _).trans (step_lim p op)
  have htr : (run (init limit m) (pre ++ [.update (.seq text) off n])).triesremaining = limit := by
    rw [run_append]
    show (update (run (init limit m) pre) (.seq text) off n).2.triesremaining = limit
    have hlim := run_lim pre (init limit m)
    revert hu
    simp only [update]
    repeat' split
    · simp
    · simp
    · simp
    · intro _; exact hlim
  have := all_refused m l (run (init limit m) (pre ++ [.update (.seq text) off n])) (run_max _ _) (by rw [htr]; exact hl) hr (fun x hx mid hmid => by
    rw [← run_append, List.append_assoc]
    exact (C129_text_set limit m pre mid text ht off n hn hu hmid x.1 (ha x hx) _ _).1)
  rwa [htr] at this

/-- `"1234"` and `u"1234"`. -/
def str1234 : Arg := .str [49, 50, 51, 52]
def text1234 : Arg := .seq [.chr 49, .chr 50, .chr 51, .chr 52]

example : Apart [.update text1234 0 4, .check text1234 0 4, .check (.seq [.num 1, .num 2]) 0 2] := by
  intro c hc
  simp [opCells, cellsOf, text1234] at hc ⊢
  omega
/-- The PIN set as text is accepted as text and refused as `str`, each refusal costing a try; and the other way round. -/
example : outs (init 3 4) [.update text1234 0 4, .check text1234 0 4, .check str1234 0 4, .check str1234 0 4, .check str1234 0 4, .check text1234 0 4] =
    [.updated (.ok ()), .checked (.ok true), .checked (.ok false), .checked (.ok false), .checked (.ok false), .checked (.ok false)] := by decide
example : outs (init 3 4) [.update str1234 0 4, .check text1234 0 4, .check str1234 0 4] = [.updated (.ok ()), .checked (.ok false), .checked (.ok true)] := by decide
example : (update (run (init 3 4) []) text1234 0 4).1 = .ok () ∧ NoChr str1234 := by
  refine ⟨by decide, ?_⟩
  intro x hx; rintro ⟨c, rfl⟩; simp [cellsOf, str1234] at hx
/-- Three presentations of text block a PIN of three tries set as `str`. -/
example : ((∀ a o l, .update a o l ∈ [Op.update str1234 0 4] → NoChr a) ∧ (run (init 3 4) [.update str1234 0 4]).triesremaining = 3) ∧
    (run (run (init 3 4) [.update str1234 0 4]) (checks [(text1234, 0, 4), (text1234, 1, 2), (text1234, 0, 4)])).triesremaining = 0 := by
  refine ⟨⟨?_, by decide⟩, by decide⟩
  intro a o l h
  simp only [List.mem_singleton, Op.update.injEq] at h
  rw [h.1]; intro x hx; rintro ⟨c, rfl⟩; simp [cellsOf, str1234] at hx
/-- `u"1234"` in eight cells accepts `u"1999"`; in four cells it does not. -/
example : (check (update (init 3 8) text1234 0 4).2 (.seq [.chr 49, .chr 57, .chr 57, .chr 57]) 0 4).1 = .ok true ∧
    (check (update (init 3 4) text1234 0 4).2 (.seq [.chr 49, .chr 57, .chr 57, .chr 57]) 0 4).1 = .ok false := by decide
/-- Text that holds NUL is not like its codes: `u"1\0"` is refused where the array 49, 0 and the text `u"1"` are taken for one another. -/
example : outs (init 3 2) [.update (.seq [.chr 49]) 0 1, .check (.seq [.chr 49, .chr 0]) 0 2] ≠
    numOuts (OwnerPIN.init 3 2) ([.update (.seq [.chr 49]) 0 1, .check (.seq [.chr 49, .chr 0]) 0 2].map opCodes) := by decide

end PINText
end Verif.Props
