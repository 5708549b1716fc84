import Verif.Props.DESCipher
import Verif.Props.OffsetsWrap
import Verif.Props.PINCells
/-! C99: a DES cipher after any history of calls: its mode, key and IV, and what it computes at offsets of either sign. -/
namespace Verif.Props
open Verif.Py Verif.Model Verif.Model.PyDes Verif.Spec Verif.Spec.DES

/-! ### Specification -/

/-- The value of the cell that index `i` names, counting from the end when it is negative. -/
def cellAt (l : List Int) (i : Int) : Int := if i < 0 then l.getD (l.length + i).toNat 0 else l.getD i.toNat 0

/-- The values of the cells that the indices `o`, …, `o + n - 1` name. -/
def cellsFrom (l : List Int) (o : Int) (n : Nat) : List Int := (List.range n).map fun j : Nat => cellAt l (o + j)

/-- A call on a DES cipher with all its arguments and, for `init`, the state of the key objects at that moment. `initDefault`
is `init` called without an initial vector. -/
inductive DCall where
  | init (heap : KeyHeap) (key : KeyArg) (mode : Int) (iv : List Int) (off len : Int)
  | initDefault (heap : KeyHeap) (key : KeyArg) (mode : Int)
  | doFinal (inB : List Int) (io il : Int) (outB : List Int) (oo : Int)
  | update

/-- The mode a call of `init` sets: that of any call naming an initialised key and one of the modes 1 and 2, even if it fails. -/
def acceptedMode (heap : KeyHeap) (key : KeyArg) (mode : Int) : Option Int :=
  match key with
  | .notKey => none
  | .key r => if (heap r).isInitialized = true ∧ (mode = 1 ∨ mode = 2) then some mode else none

/-- The key bytes and the initial vector a successful call of `init` sets, `none` for a call that fails. -/
def goodKey (heap : KeyHeap) (key : KeyArg) (mode : Int) (iv : List Int) (off len : Int) : Option (List Nat × List Nat) :=
  match key with
  | .notKey => none
  | .key r =>
    match heap r with
    | .rsa _ => none
    | .des k =>
      match k.key with
      | none => none
      | some bytes =>
        if k.initialized = true ∧ (mode = 1 ∨ mode = 2) ∧ len = 8 ∧ Reachable iv.length off 8 ∧
            (k.size = 64 → bytes.length = 8) ∧ (k.size ≠ 64 → bytes.length = 16 ∨ bytes.length = 24)
        then some (bytes, (cellsFrom iv off 8).map valueOf) else none

/-- The mode set by a call, if any. -/
def DCall.mode? : DCall → Option Int
  | .init heap key mode _ _ _ => acceptedMode heap key mode
  | .initDefault heap key mode => acceptedMode heap key mode
  | _ => none

/-- Key bytes and initial vector set by a call, if any; without an initial vector it is eight zero bytes. -/
def DCall.key? : DCall → Option (List Nat × List Nat)
  | .init heap key mode iv off len => goodKey heap key mode iv off len
  | .initDefault heap key mode => (goodKey heap key mode (List.replicate 8 0) 0 8).map fun r => (r.1, List.replicate 8 0)
  | _ => none

/-- The mode set last. -/
def modeAfter (h : List DCall) : Option Int := (h.filterMap DCall.mode?).getLast?

/-- The key and initial vector set last. -/
def keyAfter (h : List DCall) : Option (List Nat × List Nat) := (h.filterMap DCall.key?).getLast?

/-- The cipher after a call, whatever its outcome. -/
def DCall.step (c : DESCipher) : DCall → DESCipher
  | .init heap key mode iv off len => (c.init heap key mode iv off len).2
  | .initDefault heap key mode => (c.initDefault heap key mode).2
  | .doFinal inB io il outB oo => (c.doFinal inB io il outB oo).2.2
  | .update => c

/-- The cipher of `getInstance(alg)` after a history of calls. -/
def desAfter (alg : Int) (h : List DCall) : DESCipher := h.foldl DCall.step (DESCipher.new alg)

/-! ### Copying from any offset -/

theorem cellAt_names (l : List Int) (i : Int) (p : Nat) (h : Names l.length i p) : l[p]'h.1 = cellAt l i := by
  unfold cellAt
  obtain ⟨hp, h1 | ⟨h1, h2⟩⟩ := h
  · rw [if_neg (by omega), show i.toNat = p by omega, List.getD_eq_getElem?_getD, List.getElem?_eq_getElem hp]; rfl
  · rw [if_pos h2, show ((l.length : Int) + i).toNat = p by omega, List.getD_eq_getElem?_getD, List.getElem?_eq_getElem hp]; rfl

theorem cellsFrom_succ (l : List Int) (o : Int) (n : Nat) : cellsFrom l o (n + 1) = cellAt l o :: cellsFrom l (o + 1) n := by
  unfold cellsFrom
  rw [List.range_succ_eq_map, List.map_cons, List.map_map]
  congr 1
  · simp
  · apply List.map_congr_left
    intro j _
    show cellAt l (o + ((j + 1 : Nat) : Int)) = cellAt l (o + 1 + (j : Int))
    congr 1
    push_cast; omega

theorem cellsFrom_length (l : List Int) (o : Int) (n : Nat) : (cellsFrom l o n).length = n := by simp [cellsFrom]

theorem copyRange_cells (src dst : List Int) (so : Int) (i n : Nat) (hd : dst.length = i + n) (hr : n = 0 ∨ Reachable src.length (so + i) n) :
    copyRange src so dst 0 i n = (.ok (), dst.take i ++ cellsFrom src (so + i) n) := by
  induction n generalizing dst i with
  | zero =>
    rw [List.take_of_length_le (by omega)]
    simp [copyRange, cellsFrom]
  | succ n ih =>
    have hr : Reachable src.length (so + i) (n + 1) := by rcases hr with h | h; omega; exact h
    unfold Reachable at hr
    unfold copyRange
    obtain ⟨p, hp⟩ := names_of_reach src.length (so + i) (by push_cast at hr; omega)
    rw [get_names _ _ _ hp]
    simp only
    have hs := set_step dst 0 i (src[p]'hp.1) (by omega)
    rw [show ((0 : Nat) : Int) = 0 from rfl, Nat.zero_add] at hs
    rw [hs]
    simp only
    rw [ih (dst.set i _) (i + 1) (by simp; omega) (by
      by_cases hn : n = 0
      · exact .inl hn
      · right; unfold Reachable; push_cast at hr ⊢; omega)]
    rw [cellsFrom_succ, cellAt_names src _ p hp]
    congr 1
    rw [List.take_succ_eq_append_getElem (by simp; omega), List.getElem_set_self, List.take_set_of_le (Nat.le_refl i), List.append_assoc]
    rw [show so + ((i + 1 : Nat) : Int) = so + (i : Int) + 1 by push_cast; omega]
    rfl

/-- Copying into a new array, from any offset and for any length. -/
theorem copy_cells (src : List Int) (so n : Int) :
    (n ≤ 0 ∨ Reachable src.length so n.toNat → Util.arrayCopy src so (fresh n 0) 0 n = (.ok (), cellsFrom src so n.toNat)) ∧
    (¬ (n ≤ 0 ∨ Reachable src.length so n.toNat) → ∃ l, Util.arrayCopy src so (fresh n 0) 0 n = (.error .arrayIndexOutOfBounds, l)) := by
  have hf : (fresh n (0 : Int)).length = n.toNat := by rw [fresh_length]
  constructor
  · intro h
    rw [arrayCopy_copyRange]
    have := copyRange_cells src (fresh n 0) so 0 (rangeLen n) (by rw [hf]; unfold rangeLen; omega) (by
      rcases h with h | h
      · left; unfold rangeLen; omega
      · right; rw [show so + ((0 : Nat) : Int) = so by simp]; exact h)
    rw [this]
    simp [mapIndexError, rangeLen]
  · intro h
    have h1 := (C92_copy_succeeds_iff (Util.twoLists src (fresh n 0)) 0 1 so 0 n).1
    rw [twoLists_zero, twoLists_one, if_neg (by intro hh; rcases hh with hh | hh; exact h (.inl hh); exact h (.inr hh.1))] at h1
    exact ⟨_, by unfold Util.arrayCopy; simp only; rw [h1]⟩

theorem range_all (l : List Int) (n : Nat) (h : l.length = n) : range l 0 n = l := by
  unfold range
  rw [List.drop_zero, List.take_of_length_le (by omega)]

/-- `doFinal` depends on its input only through the cells named. -/
theorem doFinal_cells (c : DESCipher) (inB : List Int) (io il : Int) (outB : List Int) (oo : Int) (h : il ≤ 0 ∨ Reachable inB.length io il.toNat) :
    c.doFinal inB io il outB oo = c.doFinal (cellsFrom inB io il.toNat) (0 : Nat) (il.toNat : Nat) outB oo := by
  have e1 := (copy_cells inB io il).1 h
  have e2 := (copy_cells (cellsFrom inB io il.toNat) 0 (il.toNat : Nat)).1 (by
    unfold Reachable; rw [cellsFrom_length]; right; omega)
  have e3 : cellsFrom (cellsFrom inB io il.toNat) 0 ((il.toNat : Nat) : Int).toNat = cellsFrom inB io il.toNat := by
    generalize hL : cellsFrom inB io il.toNat = L
    have hl : L.length = il.toNat := by rw [← hL, cellsFrom_length]
    rw [Int.toNat_natCast, ← hl]
    apply List.ext_getElem?
    intro j
    unfold cellsFrom
    rw [List.getElem?_map]
    by_cases hj : j < L.length
    · rw [List.getElem?_range hj, List.getElem?_eq_getElem hj]
      show some (cellAt L (0 + (j : Int))) = _
      unfold cellAt
      rw [if_neg (by omega), List.getD_eq_getElem?_getD, show ((0 : Int) + (j : Int)).toNat = j by omega, List.getElem?_eq_getElem hj]
      rfl
    · rw [List.getElem?_eq_none (by simp; omega), List.getElem?_eq_none (by omega)]
      rfl
  rw [e3] at e2
  unfold DESCipher.doFinal
  rw [e1, show (((0 : Nat) : Int)) = 0 from rfl, e2]

/-- The output side of `doFinal`, at any offset. -/
theorem doFinal_any (c : DESCipher) (o o' : DesObj) (enc : Bool) (h1 : c.base.initialized = true) (h2 : decide (c.base.mode = some 2) = enc) (h3 : c.cipher = some o)
    (inB : List Int) (io il : Int) (hin : il ≤ 0 ∨ Reachable inB.length io il.toNat) (r : List Nat)
    (hr : DESCipher.runObj o enc ((cellsFrom inB io il.toNat).map valueOf) = .ok (r, o')) (hx : ∀ x ∈ r, x < 256) (outB : List Int) (oo : Int) :
    (r = [] ∨ Reachable outB.length oo r.length → ∃ out, c.doFinal inB io il outB oo = (.ok r.length, out, { c with cipher := some o' }) ∧
      Stored outB out oo r.length (fun j => signedCell (r.getD j 0))) ∧
    (¬ (r = [] ∨ Reachable outB.length oo r.length) → (c.doFinal inB io il outB oo).1 = .error .arrayIndexOutOfBounds) := by
  unfold DESCipher.doFinal
  rw [if_neg (by simp [h1]), h3]
  simp only
  rw [(copy_cells inB io il).1 hin]
  simp only
  rw [show decide (c.base.mode = some MODE_ENCRYPT) = enc from h2, binary_values, hr]
  simp only
  rw [binary_cells r hx]
  have hl : (r.map signedCell).length = r.length := by simp
  obtain ⟨g1, g2⟩ := arrayCopy_whole (r.map signedCell) outB oo
  have hc : (Reachable outB.length oo (r.map signedCell).length ∨ r.map signedCell = []) ↔ (r = [] ∨ Reachable outB.length oo r.length) := by
    rw [hl, List.map_eq_nil_iff]; exact Or.comm
  rw [hc] at g1 g2
  constructor
  · intro h
    obtain ⟨d', a, b⟩ := g1 h
    rw [a]
    refine ⟨d', by rw [hl], ?_⟩
    rw [hl] at b
    have hfun : ∀ j, j < r.length → (r.map signedCell).getD j 0 = signedCell (r.getD j 0) := by
      intro j hj
      rw [List.getD_eq_getElem?_getD, List.getD_eq_getElem?_getD, List.getElem?_map, List.getElem?_eq_getElem hj]; rfl
    obtain ⟨b1, b2, b3⟩ := b
    refine ⟨b1, b2, fun p => ?_⟩
    rcases b3 p with ⟨j, hj, q1, q2, q3⟩ | q
    · exact .inl ⟨j, hj, q1, by rw [q2]; exact congrArg some (hfun j hj), q3⟩
    · exact .inr q
  · intro h
    have := g2 h
    generalize Util.arrayCopy (r.map signedCell) 0 outB oo ((r.map signedCell).length : Nat) = z at this
    obtain ⟨z1, z2⟩ := z
    simp only at this
    subst this
    rfl

/-! ### One call of init -/

theorem goodKey_block (heap : KeyHeap) (key : KeyArg) (mode : Int) (iv : List Int) (off len : Int) (k v : List Nat)
    (h : goodKey heap key mode iv off len = some (k, v)) : IsBlock v ∧ (mode = 1 ∨ mode = 2) ∧ acceptedMode heap key mode = some mode := by
  unfold goodKey at h
  cases key with
  | notKey => cases h
  | key r =>
    simp only at h
    unfold acceptedMode
    simp only
    cases hk : heap r with
    | rsa x => rw [hk] at h; cases h
    | des d =>
      rw [hk] at h
      simp only at h
      cases hb : d.key with
      | none => rw [hb] at h; cases h
      | some bytes =>
        rw [hb] at h
        simp only at h
        split at h
        · rename_i hg
          injection h with h
          injection h with _ h
          refine ⟨?_, hg.2.1, if_pos ⟨hg.1, hg.2.1⟩⟩
          rw [← h]
          exact ⟨by rw [List.length_map, cellsFrom_length], values_lt _⟩
        · cases h

theorem init_step (c : DESCipher) (heap : KeyHeap) (key : KeyArg) (mode : Int) (iv : List Int) (off len : Int) :
    (((c.init heap key mode iv off len).1 = .ok ()) ↔ (goodKey heap key mode iv off len).isSome = true) ∧
    (c.init heap key mode iv off len).2.base.mode = (acceptedMode heap key mode <|> c.base.mode) ∧
    (c.init heap key mode iv off len).2.base.initialized = (c.base.initialized || (goodKey heap key mode iv off len).isSome) ∧
    (c.init heap key mode iv off len).2.desmode = c.desmode ∧ (c.init heap key mode iv off len).2.padmode = c.padmode ∧
    (goodKey heap key mode iv off len = none → (c.init heap key mode iv off len).2.cipher = c.cipher) ∧
    (∀ k v, goodKey heap key mode iv off len = some (k, v) → ∃ o, (c.init heap key mode iv off len).2.cipher = some o ∧ ObjLike o k v c.desmode c.padmode) := by
  cases key with
  | notKey => simp [DESCipher.init, CipherBase.init, goodKey, acceptedMode]
  | key r =>
    by_cases hi : (heap r).isInitialized = true
    · by_cases hm : mode = MODE_ENCRYPT ∨ mode = MODE_DECRYPT
      · have hm' : mode = 1 ∨ mode = 2 := by unfold MODE_ENCRYPT MODE_DECRYPT at hm; omega
        have hacc : acceptedMode heap (.key r) mode = some mode := by unfold acceptedMode; exact if_pos ⟨hi, hm'⟩
        rw [hacc]
        unfold DESCipher.init CipherBase.init
        simp only
        rw [if_neg (show ¬ ¬ (heap r).isInitialized = true from fun h => h hi),
          if_neg (show ¬ ¬ (mode = MODE_ENCRYPT ∨ mode = MODE_DECRYPT) from fun h => h hm)]
        simp only
        cases hk : heap r with
        | rsa k => simp [goodKey, hk]
        | des d =>
          rw [hk] at hi
          have hi' : d.initialized = true := hi
          simp only
          by_cases hl : len = 8
          · subst hl
            rw [if_neg (by simp)]
            obtain ⟨c1, c2⟩ := copy_cells iv off 8
            rw [show (8 : Int).toNat = 8 from rfl] at c1 c2
            by_cases hr : Reachable iv.length off 8
            · rw [c1 (.inr hr)]
              simp only
              have hivl : (arrayToBinary (cellsFrom iv off 8)).length = 8 := by rw [binary_values, List.length_map, cellsFrom_length]
              cases hb : d.key with
              | none => simp [goodKey, hk, hb]
              | some bytes =>
                simp only
                by_cases h64 : d.size = 64
                · rw [if_pos h64]
                  by_cases hb8 : bytes.length = 8
                  · rw [(desNew_eq bytes c.desmode c.padmode _ hivl).1 hb8]
                    have hg : goodKey heap (.key r) mode iv off 8 = some (bytes, (cellsFrom iv off 8).map valueOf) := by
                      simp only [goodKey, hk, hb]
                      exact if_pos ⟨hi', hm', trivial, hr, fun _ => hb8, fun h => absurd h64 h⟩
                    rw [hg]
                    refine ⟨by simp, by simp, by simp, rfl, rfl, by simp, ?_⟩
                    intro k v h
                    injection h with h
                    injection h with h1 h2
                    subst h1; subst h2
                    exact ⟨_, rfl, .inl ⟨hb8, by rw [binary_values]⟩⟩
                  · rw [(desNew_eq bytes c.desmode c.padmode _ hivl).2 hb8]
                    have hg : goodKey heap (.key r) mode iv off 8 = none := by
                      simp only [goodKey, hk, hb]
                      exact if_neg (fun h => hb8 (h.2.2.2.2.1 h64))
                    rw [hg]
                    simp
                · rw [if_neg h64]
                  by_cases hb3 : bytes.length = 16 ∨ bytes.length = 24
                  · rw [(tripleNew_eq bytes c.desmode c.padmode _ hivl).1 hb3]
                    have hg : goodKey heap (.key r) mode iv off 8 = some (bytes, (cellsFrom iv off 8).map valueOf) := by
                      simp only [goodKey, hk, hb]
                      exact if_pos ⟨hi', hm', trivial, hr, fun h => absurd h h64, fun _ => hb3⟩
                    rw [hg]
                    refine ⟨by simp, by simp, by simp, rfl, rfl, by simp, ?_⟩
                    intro k v h
                    injection h with h
                    injection h with h1 h2
                    subst h1; subst h2
                    refine ⟨_, rfl, .inr ⟨hb3, _, rfl, ?_⟩⟩
                    rw [← binary_values]
                    exact ⟨rfl, rfl, rfl, rfl, rfl, rfl, rfl⟩
                  · rw [(tripleNew_eq bytes c.desmode c.padmode _ hivl).2 hb3]
                    have hg : goodKey heap (.key r) mode iv off 8 = none := by
                      simp only [goodKey, hk, hb]
                      exact if_neg (fun h => hb3 (h.2.2.2.2.2 h64))
                    rw [hg]
                    simp
            · obtain ⟨l, hl⟩ := c2 (by intro h; rcases h with h | h; omega; exact hr h)
              rw [hl]
              have hg : goodKey heap (.key r) mode iv off 8 = none := by
                unfold goodKey
                simp only [hk]
                split
                · rfl
                · exact if_neg (fun h => hr h.2.2.2.1)
              rw [hg]
              simp
          · rw [if_pos hl]
            have hg : goodKey heap (.key r) mode iv off len = none := by
              unfold goodKey
              simp only [hk]
              split
              · rfl
              · exact if_neg (fun h => hl h.2.2.1)
            rw [hg]
            simp
      · have hm' : ¬ (mode = 1 ∨ mode = 2) := by unfold MODE_ENCRYPT MODE_DECRYPT at hm; omega
        have hacc : acceptedMode heap (.key r) mode = none := by unfold acceptedMode; exact if_neg (fun h => hm' h.2)
        have hg : goodKey heap (.key r) mode iv off len = none := by
          cases hgg : goodKey heap (.key r) mode iv off len with
          | none => rfl
          | some p => exact absurd (goodKey_block heap (.key r) mode iv off len p.1 p.2 hgg).2.1 hm'
        rw [hacc, hg]
        unfold DESCipher.init CipherBase.init
        simp only
        rw [if_neg (show ¬ ¬ (heap r).isInitialized = true from fun h => h hi), if_pos hm]
        simp
    · have hacc : acceptedMode heap (.key r) mode = none := by unfold acceptedMode; exact if_neg (fun h => hi h.1)
      have hg : goodKey heap (.key r) mode iv off len = none := by
        cases hgg : goodKey heap (.key r) mode iv off len with
        | none => rfl
        | some p =>
          have := (goodKey_block heap (.key r) mode iv off len p.1 p.2 hgg).2.2
          rw [hacc] at this; cases this
      rw [hacc, hg]
      unfold DESCipher.init CipherBase.init
      simp only
      rw [if_pos hi]
      simp

/-! ### Histories -/

structure HistInv (alg : Int) (h : List DCall) (c : DESCipher) : Prop where
  dm : c.desmode = if alg = 5 ∨ alg = 8 then 0 else 1
  pm : c.padmode = if alg = 5 ∨ alg = 1 then 1 else 2
  mode : c.base.mode = modeAfter h
  init : c.base.initialized = (keyAfter h).isSome
  obj : ∀ k v, keyAfter h = some (k, v) → IsBlock v ∧ (∃ m, modeAfter h = some m) ∧
    ∃ o, c.cipher = some o ∧ ObjLike o k v (if alg = 5 ∨ alg = 8 then 0 else 1) (if alg = 5 ∨ alg = 1 then 1 else 2)

theorem getLast_snoc {α β} (f : α → Option β) (h : List α) (x : α) :
    ((h ++ [x]).filterMap f).getLast? = (f x <|> (h.filterMap f).getLast?) := by
  rw [List.filterMap_append]
  cases hx : f x with
  | none => simp [hx]
  | some y => simp [hx]

theorem zero_iv : (cellsFrom (List.replicate 8 0) 0 8).map valueOf = List.replicate 8 0 := by decide

theorem goodKey_zero (heap : KeyHeap) (key : KeyArg) (mode : Int) :
    (goodKey heap key mode (List.replicate 8 0) 0 8).map (fun r => (r.1, List.replicate 8 0)) = goodKey heap key mode (List.replicate 8 0) 0 8 := by
  unfold goodKey
  split
  · rfl
  · split
    · rfl
    · split
      · rfl
      · split
        · rw [zero_iv]; rfl
        · rfl

theorem histInv_init (alg : Int) (h : List DCall) (c : DESCipher) (hc : HistInv alg h c) (x : DCall) (heap : KeyHeap) (key : KeyArg) (mode : Int) (iv : List Int)
    (off len : Int) (hx1 : x.mode? = acceptedMode heap key mode) (hx2 : x.key? = goodKey heap key mode iv off len) :
    HistInv alg (h ++ [x]) (c.init heap key mode iv off len).2 := by
  obtain ⟨_, s2, s3, s4, s5, s6, s7⟩ := init_step c heap key mode iv off len
  have em : modeAfter (h ++ [x]) = (acceptedMode heap key mode <|> modeAfter h) := by unfold modeAfter; rw [getLast_snoc, hx1]
  have ek : keyAfter (h ++ [x]) = (goodKey heap key mode iv off len <|> keyAfter h) := by unfold keyAfter; rw [getLast_snoc, hx2]
  refine ⟨by rw [s4]; exact hc.dm, by rw [s5]; exact hc.pm, by rw [s2, hc.mode, em], ?_, ?_⟩
  · rw [s3, hc.init, ek]
    cases goodKey heap key mode iv off len <;> simp
  · intro k v hkv
    rw [ek] at hkv
    cases hg : goodKey heap key mode iv off len with
    | none =>
      rw [hg] at hkv
      obtain ⟨a, ⟨m, b⟩, o, d, e⟩ := hc.obj k v (by simpa using hkv)
      refine ⟨a, ?_, o, by rw [s6 hg]; exact d, e⟩
      rw [em, b]
      cases acceptedMode heap key mode with
      | none => exact ⟨m, rfl⟩
      | some m' => exact ⟨m', rfl⟩
    | some p =>
      rw [hg] at hkv
      have hp : p = (k, v) := by simpa using hkv
      subst hp
      obtain ⟨a, _, b⟩ := goodKey_block _ _ _ _ _ _ _ _ hg
      obtain ⟨o, d, e⟩ := s7 k v hg
      rw [hc.dm, hc.pm] at e
      exact ⟨a, ⟨mode, by rw [em, b]; rfl⟩, o, d, e⟩

theorem histInv (alg : Int) (h : List DCall) : HistInv alg h (desAfter alg h) := by
  induction h using snoc_induction with
  | h0 => exact ⟨rfl, rfl, rfl, rfl, fun k v h => by cases h⟩
  | h1 l x ih =>
    have e : desAfter alg (l ++ [x]) = DCall.step (desAfter alg l) x := by unfold desAfter; rw [List.foldl_append]; rfl
    rw [e]
    generalize desAfter alg l = c at ih
    have skip : ∀ c', c'.desmode = c.desmode → c'.padmode = c.padmode → c'.base = c.base → x.mode? = none → x.key? = none →
        (∀ k v, keyAfter l = some (k, v) → ∃ o, c'.cipher = some o ∧ ObjLike o k v (if alg = 5 ∨ alg = 8 then 0 else 1) (if alg = 5 ∨ alg = 1 then 1 else 2)) →
        HistInv alg (l ++ [x]) c' := by
      intro c' g1 g2 g3 g4 g5 g6
      have em : modeAfter (l ++ [x]) = modeAfter l := by unfold modeAfter; rw [getLast_snoc, g4]; rfl
      have ek : keyAfter (l ++ [x]) = keyAfter l := by unfold keyAfter; rw [getLast_snoc, g5]; rfl
      refine ⟨by rw [g1]; exact ih.dm, by rw [g2]; exact ih.pm, by rw [g3, em]; exact ih.mode, by rw [g3, ek]; exact ih.init, ?_⟩
      intro k v hkv
      rw [ek] at hkv
      obtain ⟨a, b, _⟩ := ih.obj k v hkv
      exact ⟨a, by rw [em]; exact b, g6 k v hkv⟩
    cases x with
    | init heap key mode iv off len => exact histInv_init alg l c ih _ heap key mode iv off len rfl rfl
    | initDefault heap key mode =>
      exact histInv_init alg l c ih (.initDefault heap key mode) heap key mode (List.replicate 8 0) 0 8 rfl (goodKey_zero heap key mode)
    | update =>
      exact skip c rfl rfl rfl rfl rfl (fun k v hkv => (ih.obj k v hkv).2.2)
    | doFinal inB io il outB oo =>
      have hf : (c.doFinal inB io il outB oo).2.2.desmode = c.desmode ∧ (c.doFinal inB io il outB oo).2.2.padmode = c.padmode ∧
          (c.doFinal inB io il outB oo).2.2.base = c.base := by
        unfold DESCipher.doFinal
        simp only
        repeat' split
        all_goals exact ⟨rfl, rfl, rfl⟩
      refine skip _ hf.1 hf.2.1 hf.2.2 rfl rfl ?_
      intro k v hkv
      obtain ⟨a, ⟨m, b⟩, o, d, e⟩ := ih.obj k v hkv
      have hr : Ready c alg m k v := ⟨by rw [ih.init, hkv]; rfl, by rw [ih.mode, b], o, d, e⟩
      exact (ready_doFinal c alg m k v hr inB io il outB oo).obj

theorem histReady (alg : Int) (h : List DCall) (m : Int) (k v : List Nat) (hm : modeAfter h = some m) (hk : keyAfter h = some (k, v)) :
    Ready (desAfter alg h) alg m k v ∧ IsBlock v := by
  have hi := histInv alg h
  obtain ⟨a, _, b⟩ := hi.obj k v hk
  exact ⟨⟨by rw [hi.init, hk]; rfl, by rw [hi.mode, hm], b⟩, a⟩

/-! ### The property -/

/-- C99. Outcome of `init`, on a cipher with any history and for every offset: it returns exactly when the key is an initialised DES key
with the bytes its kind needs, the mode is 1 or 2, and the initial vector has length 8 and all its indices name cells (or is omitted). -/
theorem C99_init (alg : Int) (h : List DCall) (heap : KeyHeap) (key : KeyArg) (mode : Int) (iv : List Int) (off len : Int) :
    (((desAfter alg h).init heap key mode iv off len).1 = .ok () ↔
      ∃ r k bytes, key = .key r ∧ heap r = .des k ∧ k.initialized = true ∧ k.key = some bytes ∧
        (if k.size = 64 then bytes.length = 8 else bytes.length = 16 ∨ bytes.length = 24) ∧
        (mode = 1 ∨ mode = 2) ∧ len = 8 ∧ Reachable iv.length off 8) ∧
    (((desAfter alg h).initDefault heap key mode).1 = .ok () ↔
      ∃ r k bytes, key = .key r ∧ heap r = .des k ∧ k.initialized = true ∧ k.key = some bytes ∧
        (if k.size = 64 then bytes.length = 8 else bytes.length = 16 ∨ bytes.length = 24) ∧ (mode = 1 ∨ mode = 2)) := by
  have main : ∀ (iv : List Int) (off len : Int), (goodKey heap key mode iv off len).isSome = true ↔
      ∃ r k bytes, key = .key r ∧ heap r = .des k ∧ k.initialized = true ∧ k.key = some bytes ∧
        (if k.size = 64 then bytes.length = 8 else bytes.length = 16 ∨ bytes.length = 24) ∧
        (mode = 1 ∨ mode = 2) ∧ len = 8 ∧ Reachable iv.length off 8 := by
    intro iv off len
    constructor
    · intro hs
      unfold goodKey at hs
      cases key with
      | notKey => cases hs
      | key r =>
        simp only at hs
        cases hk : heap r with
        | rsa x => rw [hk] at hs; cases hs
        | des d =>
          rw [hk] at hs
          simp only at hs
          cases hb : d.key with
          | none => rw [hb] at hs; cases hs
          | some bytes =>
            rw [hb] at hs
            simp only at hs
            split at hs
            · rename_i hg
              refine ⟨r, d, bytes, rfl, hk, hg.1, hb, ?_, hg.2.1, hg.2.2.1, hg.2.2.2.1⟩
              split
              · rename_i h64; exact hg.2.2.2.2.1 h64
              · rename_i h64; exact hg.2.2.2.2.2 h64
            · cases hs
    · rintro ⟨r, k, bytes, rfl, h2, h3, h4, h5, h6, h7, h8⟩
      unfold goodKey
      simp only [h2, h4]
      rw [if_pos]
      · rfl
      · refine ⟨h3, h6, h7, h8, ?_, ?_⟩
        · intro h64; rw [if_pos h64] at h5; exact h5
        · intro h64; rw [if_neg h64] at h5; exact h5
  constructor
  · rw [(init_step _ heap key mode iv off len).1]; exact main iv off len
  · have := (init_step (desAfter alg h) heap key mode (List.replicate 8 0) 0 8).1
    rw [main] at this
    have e : (desAfter alg h).initDefault heap key mode = (desAfter alg h).init heap key mode (List.replicate 8 0) 0 8 := rfl
    rw [e, this]
    constructor
    · rintro ⟨r, k, b, h1, h2, h3, h4, h5, h6, _⟩; exact ⟨r, k, b, h1, h2, h3, h4, h5, h6⟩
    · rintro ⟨r, k, b, h1, h2, h3, h4, h5, h6⟩; exact ⟨r, k, b, h1, h2, h3, h4, h5, h6, rfl, by unfold Reachable; simp⟩

/-- C99. A cipher on which no `init` has succeeded refuses to work, whatever else was called; any other has a mode. -/
theorem C99_unready (alg : Int) (h : List DCall) :
    (keyAfter h = none → (desAfter alg h).update = .error (.crypto 4) ∧
      ∀ inB io il outB oo, (desAfter alg h).doFinal inB io il outB oo = (.error (.crypto 4), outB, desAfter alg h)) ∧
    (∀ k v, keyAfter h = some (k, v) → (desAfter alg h).update = .ok () ∧ (modeAfter h = some 1 ∨ modeAfter h = some 2)) := by
  have hi := histInv alg h
  constructor
  · intro hn
    have hf : (desAfter alg h).base.initialized = false := by rw [hi.init, hn]; rfl
    constructor
    · simp [DESCipher.update, hf, INVALID_INIT]
    · intro inB io il outB oo
      simp [DESCipher.doFinal, hf, INVALID_INIT]
  · intro k v hk
    have hf : (desAfter alg h).base.initialized = true := by rw [hi.init, hk]; rfl
    constructor
    · simp [DESCipher.update, hf]
    · obtain ⟨_, ⟨m, hm⟩, _⟩ := hi.obj k v hk
      have hmem : m ∈ h.filterMap DCall.mode? := List.mem_of_getLast? hm
      obtain ⟨x, _, hx⟩ := List.mem_filterMap.1 hmem
      have : ∀ heap key mode, acceptedMode heap key mode = some m → m = 1 ∨ m = 2 := by
        intro heap key mode h
        unfold acceptedMode at h
        split at h
        · cases h
        · split at h
          · rename_i hh; injection h with h; rw [← h]; exact hh.2
          · cases h
      have h12 : m = 1 ∨ m = 2 := by
        cases x with
        | init heap key mode iv off len => exact this heap key mode hx
        | initDefault heap key mode => exact this heap key mode hx
        | doFinal => cases hx
        | update => cases hx
      rw [hm]
      rcases h12 with rfl | rfl
      · exact .inl rfl
      · exact .inr rfl

/-- C99. Encryption after any history: with the mode set last and the key and initial vector of the last `init` that succeeded (zeros if it had none),
at offsets of either sign. -/
theorem C99_encrypt (alg : Int) (halg : alg = 1 ∨ alg = 4 ∨ alg = 5 ∨ alg = 8) (h : List DCall) (key iv : List Nat) (hm : modeAfter h = some 2)
    (hk : keyAfter h = some (key, iv)) (inB : List Int) (io il : Int) (hin : il ≤ 0 ∨ Reachable inB.length io il.toNat)
    (hn : alg = 1 ∨ alg = 5 → il.toNat % 8 = 0) :
    ∃ ct, Encrypts alg key iv ((cellsFrom inB io il.toNat).map valueOf) ct ∧ ct.length = (if alg = 1 ∨ alg = 5 then il.toNat else (il.toNat / 8 + 1) * 8) ∧
      ∀ outB oo, (ct = [] ∨ Reachable outB.length oo ct.length → ∃ out c', (desAfter alg h).doFinal inB io il outB oo = (.ok ct.length, out, c') ∧
          Stored outB out oo ct.length (fun j => signedCell (ct.getD j 0))) ∧
        (¬ (ct = [] ∨ Reachable outB.length oo ct.length) → ((desAfter alg h).doFinal inB io il outB oo).1 = .error .arrayIndexOutOfBounds) := by
  obtain ⟨hr, hiv⟩ := histReady alg h 2 key iv hm hk
  obtain ⟨o, ho1, ho2⟩ := hr.obj
  have hx := values_lt (cellsFrom inB io il.toNat)
  have hml : ((cellsFrom inB io il.toNat).map valueOf).length = il.toNat := by rw [List.length_map, cellsFrom_length]
  generalize hmm : (cellsFrom inB io il.toNat).map valueOf = m at hx hml
  obtain ⟨bs, hb, hb1, hb2⟩ := pad_code alg (if alg = 5 ∨ alg = 8 then 0 else 1) iv m (by intro h; rw [hml]; exact hn (by omega)) hx
  obtain ⟨o', e⟩ := runObj_encrypt o key iv _ _ ho2 hiv (by split <;> simp) m bs hb hb2
  rw [mode_if] at e
  obtain ⟨g1, g2⟩ := chained_blocks alg key iv hiv bs hb
  refine ⟨_, (encrypts_iff alg halg key iv m _).2 ⟨bs, hb, hb1, rfl⟩, ?_, ?_⟩
  · rw [flatten_length8 _ (fun b h => (g1 b h).1), g2, ← flatten_length8 bs (fun b h => (hb b h).1)]
    have h8 := flatten_mod8 bs hb
    by_cases ha : alg = 5 ∨ alg = 1
    · rw [if_pos ha] at hb1
      rw [if_pos (by omega), hb1, hml]
    · rw [if_neg ha] at hb1
      obtain ⟨k, k1, k2, k3⟩ := hb1
      have := congrArg List.length k3
      simp only [List.length_append, List.length_replicate] at this
      rw [if_neg (by omega)]
      omega
  · intro outB oo
    have := doFinal_any _ o o' true hr.init (by rw [hr.mode]; rfl) ho1 inB io il hin _ (by rw [hmm]; exact e) (flatten_bytes _ g1) outB oo
    exact ⟨fun h => let ⟨out, a, b⟩ := this.1 h; ⟨out, _, a, b⟩, this.2⟩

/-- C99. Decryption after any history, likewise: of any cells that spell an encryption. -/
theorem C99_decrypt (alg : Int) (halg : alg = 1 ∨ alg = 4 ∨ alg = 5 ∨ alg = 8) (h : List DCall) (key iv : List Nat) (hm : modeAfter h = some 1)
    (hk : keyAfter h = some (key, iv)) (m ct : List Nat) (hx : ∀ x ∈ m, x < 256) (he : Encrypts alg key iv m ct)
    (inB : List Int) (io il : Int) (hin : il ≤ 0 ∨ Reachable inB.length io il.toNat) (hct : (cellsFrom inB io il.toNat).map valueOf = ct) (outB : List Int) (oo : Int) :
    (m = [] ∨ Reachable outB.length oo m.length → ∃ out c', (desAfter alg h).doFinal inB io il outB oo = (.ok m.length, out, c') ∧
      Stored outB out oo m.length (fun j => signedCell (m.getD j 0))) ∧
    (¬ (m = [] ∨ Reachable outB.length oo m.length) → ((desAfter alg h).doFinal inB io il outB oo).1 = .error .arrayIndexOutOfBounds) := by
  obtain ⟨hr, hiv⟩ := histReady alg h 1 key iv hm hk
  obtain ⟨o, ho1, ho2⟩ := hr.obj
  obtain ⟨bs, hb, hb1, hb2⟩ := (encrypts_iff alg halg key iv m ct).1 he
  obtain ⟨g1, g2⟩ := chained_blocks alg key iv hiv bs hb
  have hkl : key.length = 8 ∨ key.length = 16 ∨ key.length = 24 := by
    rcases ho2 with ⟨h, _⟩ | ⟨h, _⟩
    · exact .inl h
    · exact .inr h
  have hdec : (if alg = 5 ∨ alg = 8 then ecb (decBlock key) (if alg = 5 ∨ alg = 8 then ecb (blockCipher key) bs else cbcEncrypt (blockCipher key) iv bs)
      else cbcDecrypt (decBlock key) iv (if alg = 5 ∨ alg = 8 then ecb (blockCipher key) bs else cbcEncrypt (blockCipher key) iv bs)) = bs := by
    split
    · exact ecb_inverse _ _ (dec_blockCipher key hkl) bs hb
    · exact cbc_inverse _ _ (dec_blockCipher key hkl) (fun b _ => blockCipher_block key b) iv hiv bs hb
  obtain ⟨o', e⟩ := runObj_decrypt o key iv _ _ ho2 hiv (by split <;> simp) m _ g1 (by rw [mode_if, hdec]; exact unpad_code alg _ iv m _ hb1)
  rw [← hb2] at e
  have := doFinal_any _ o o' false hr.init (by rw [hr.mode]; rfl) ho1 inB io il hin m (by rw [hct]; exact e) hx outB oo
  exact ⟨fun h => let ⟨out, a, b⟩ := this.1 h; ⟨out, _, a, b⟩, this.2⟩

/-- C99. Refusals after any history: an input index that names no cell raises ArrayIndexOutOfBoundsException, and a length that is not a multiple of 8,
when decrypting or encrypting without padding, raises ValueError; the output array is untouched. -/
theorem C99_refused (alg : Int) (h : List DCall) (key iv : List Nat) (m : Int) (hm : modeAfter h = some m)
    (hk : keyAfter h = some (key, iv)) (inB : List Int) (io il : Int) (outB : List Int) (oo : Int) :
    (¬ (il ≤ 0 ∨ Reachable inB.length io il.toNat) → (desAfter alg h).doFinal inB io il outB oo = (.error .arrayIndexOutOfBounds, outB, desAfter alg h)) ∧
    (il ≤ 0 ∨ Reachable inB.length io il.toNat → il.toNat % 8 ≠ 0 → (m = 1 ∨ alg = 1 ∨ alg = 5) →
      (desAfter alg h).doFinal inB io il outB oo = (.error .valueError, outB, desAfter alg h)) := by
  obtain ⟨hr, hiv⟩ := histReady alg h m key iv hm hk
  have hmode : m = 1 ∨ m = 2 := by
    rcases ((C99_unready alg h).2 key iv hk).2 with h' | h' <;> rw [hm] at h' <;> injection h' with h'
    · exact .inl h'
    · exact .inr h'
  constructor
  · intro hn
    obtain ⟨o, ho1, _⟩ := hr.obj
    obtain ⟨l, hl⟩ := (copy_cells inB io il).2 hn
    unfold DESCipher.doFinal
    rw [if_neg (by simp [hr.init]), ho1]
    simp only
    rw [hl]
  · intro hin h8 hmm
    rw [doFinal_cells _ inB io il outB oo hin]
    exact (C62_refused alg m hmode key iv hiv _ _ hr .new (cellsFrom inB io il.toNat) 0 il.toNat outB oo).2 (by rw [cellsFrom_length]; omega) h8 hmm

/-! A concrete history: initialised for encryption without an initial vector, then an `init` for decryption that fails (the initial vector
has 7 bytes), a `doFinal` and an `update`: the cipher now decrypts, with the first key and eight zero bytes. -/
def demoCalls : List DCall :=
  [.initDefault demoHeap (.key 0) 2, .init demoHeap (.key 0) 1 [1, 2, 3, 4, 5, 6, 7] 0 7, .doFinal [1] 0 1 [0] 0, .update]

example : modeAfter demoCalls = some 1 ∧ keyAfter demoCalls = some ([1, 2, 3, 4, 5, 6, 7, 8, 9, 10, 11, 12, 13, 14, 15, 16], List.replicate 8 0) ∧
    Reachable [5, 6, 7, 8, 1, 2, 3, 4].length (-4) 8 ∧ cellsFrom [5, 6, 7, 8, 1, 2, 3, 4] (-4) 8 = [1, 2, 3, 4, 5, 6, 7, 8] := by decide

/-! ### RSA ciphers -/

/-- The mode set last in a history of `init` calls on an RSA cipher (`doFinal` and `update` change nothing in it). -/
def rsaModeAfter (h : List InitCall) : Option Int := (h.filterMap fun a => acceptedMode a.heap a.key a.mode).getLast?

/-- The reference of the key set last: that of the last call naming an initialised RSA key and a mode. -/
def rsaKeyAfter (h : List InitCall) : Option Nat :=
  (h.filterMap fun a => match a.key with
    | .notKey => none
    | .key r => match a.heap r with
      | .des _ => none
      | .rsa k => if k.initialized = true ∧ (a.mode = 1 ∨ a.mode = 2) then some r else none).getLast?

theorem rsaHist (alg : Int) (h : List InitCall) : rsaInits (RSACipher.new alg) h = ⟨⟨alg, (rsaKeyAfter h).isSome, rsaModeAfter h⟩, rsaKeyAfter h⟩ := by
  induction h using snoc_induction with
  | h0 => rfl
  | h1 l a ih =>
    have e : rsaInits (RSACipher.new alg) (l ++ [a]) = ((rsaInits (RSACipher.new alg) l).init a.heap a.key a.mode).2 := by
      unfold rsaInits; rw [List.foldl_append]; rfl
    rw [e, ih]
    unfold rsaModeAfter rsaKeyAfter
    rw [getLast_snoc, getLast_snoc]
    obtain ⟨heap, key, mode⟩ := a
    cases key with
    | notKey => rfl
    | key r =>
      simp only [acceptedMode]
      unfold RSACipher.init CipherBase.init
      simp only
      by_cases hi : (heap r).isInitialized = true
      · rw [if_neg (show ¬ ¬ (heap r).isInitialized = true from fun h => h hi)]
        by_cases hm : mode = MODE_ENCRYPT ∨ mode = MODE_DECRYPT
        · have hm' : mode = 1 ∨ mode = 2 := by unfold MODE_ENCRYPT MODE_DECRYPT at hm; omega
          rw [if_neg (show ¬ ¬ (mode = MODE_ENCRYPT ∨ mode = MODE_DECRYPT) from fun h => h hm), if_pos ⟨hi, hm'⟩]
          simp only
          cases hk : heap r with
          | des d => rfl
          | rsa k =>
            rw [hk] at hi
            have hi' : k.initialized = true := hi
            simp only
            rw [if_pos ⟨hi', hm'⟩]
            rfl
        · have hm' : ¬ (mode = 1 ∨ mode = 2) := by unfold MODE_ENCRYPT MODE_DECRYPT at hm; omega
          rw [if_pos hm, if_neg (fun h => hm' h.2)]
          cases hk : heap r with
          | des d => rfl
          | rsa k => simp only; rw [if_neg (fun h => hm' h.2)]; rfl
      · rw [if_pos hi, if_neg (fun h => hi h.1)]
        cases hk : heap r with
        | des d => rfl
        | rsa k =>
          rw [hk] at hi
          simp only
          rw [if_neg (fun h => hi h.1)]; rfl

/-- C99. An RSA cipher after any history of `init` calls: without a good one it refuses to work; otherwise it computes exactly what a new cipher
computes after a single `init` with the key of the last good call and the mode set last - which may come from a later call that failed. -/
theorem C99_rsa (alg : Int) (h : List InitCall) :
    (rsaKeyAfter h = none → (rsaInits (RSACipher.new alg) h).update = .error (.crypto 4) ∧
      ∀ heap ops ls rnd inB io il outB oo, (rsaInits (RSACipher.new alg) h).doFinal heap ops ls rnd inB io il outB oo = some (.error (.crypto 4), outB)) ∧
    (∀ r, rsaKeyAfter h = some r → ∃ m, rsaModeAfter h = some m ∧ (m = 1 ∨ m = 2) ∧
      ∀ (heap0 : KeyHeap) (k : RSAKey), heap0 r = .rsa k → k.initialized = true →
        ∀ heap ops ls rnd inB io il outB oo, (rsaInits (RSACipher.new alg) h).doFinal heap ops ls rnd inB io il outB oo =
          ((RSACipher.new alg).init heap0 (.key r) m).2.doFinal heap ops ls rnd inB io il outB oo) := by
  rw [rsaHist]
  constructor
  · intro hn
    rw [hn]
    exact ⟨rfl, fun _ _ _ _ _ _ _ _ _ => rfl⟩
  · intro r hr
    have hmode : ∃ m, rsaModeAfter h = some m := by
      have hmem := List.mem_of_getLast? hr
      obtain ⟨a, ha, hx⟩ := List.mem_filterMap.1 hmem
      have hacc : acceptedMode a.heap a.key a.mode = some a.mode := by
        cases hk : a.key with
        | notKey => rw [hk] at hx; cases hx
        | key q =>
          rw [hk] at hx
          simp only at hx
          cases hh : a.heap q with
          | des d => rw [hh] at hx; cases hx
          | rsa k =>
            rw [hh] at hx
            simp only at hx
            split at hx
            · rename_i hc
              unfold acceptedMode
              simp only [hh]
              exact if_pos hc
            · cases hx
      have : a.mode ∈ h.filterMap fun a => acceptedMode a.heap a.key a.mode := List.mem_filterMap.2 ⟨a, ha, hacc⟩
      unfold rsaModeAfter
      cases hl : (h.filterMap fun a => acceptedMode a.heap a.key a.mode).getLast? with
      | none => rw [List.getLast?_eq_none_iff] at hl; rw [hl] at this; cases this
      | some m => exact ⟨m, rfl⟩
    obtain ⟨m, hm⟩ := hmode
    have h12 : m = 1 ∨ m = 2 := by
      obtain ⟨a, _, hx⟩ := List.mem_filterMap.1 (List.mem_of_getLast? hm)
      unfold acceptedMode at hx
      split at hx
      · cases hx
      · split at hx
        · rename_i hh; injection hx with hx; rw [← hx]; exact hh.2
        · cases hx
    refine ⟨m, hm, h12, ?_⟩
    intro heap0 k h1 h2 heap ops ls rnd inB io il outB oo
    have := rsaHist alg [⟨heap0, .key r, m⟩]
    have e : rsaInits (RSACipher.new alg) [⟨heap0, .key r, m⟩] = ((RSACipher.new alg).init heap0 (.key r) m).2 := rfl
    have hi : (KeyObj.rsa k).isInitialized = true := h2
    have e1 : rsaKeyAfter [⟨heap0, .key r, m⟩] = some r := by simp [rsaKeyAfter, h1, h2, h12]
    have e2 : rsaModeAfter [⟨heap0, .key r, m⟩] = some m := by simp [rsaModeAfter, acceptedMode, h1, hi, h12]
    rw [← e, this, e1, e2, hr, hm]

/-! A concrete history: set up for encryption with an RSA key, then given a DES key for decryption, which is refused: it now decrypts with the RSA key. -/
def demoRSAHeap : KeyHeap := fun r => if r = 0 then .rsa { RSAKey.new true 16 with initialized := true } else .des ((DESKey.new 3 64).setKey [1, 2, 3, 4, 5, 6, 7, 8] 0)

example : rsaKeyAfter [⟨demoRSAHeap, .key 0, 2⟩, ⟨demoRSAHeap, .key 1, 1⟩, ⟨demoRSAHeap, .notKey, 2⟩] = some 0 ∧
    rsaModeAfter [⟨demoRSAHeap, .key 0, 2⟩, ⟨demoRSAHeap, .key 1, 1⟩, ⟨demoRSAHeap, .notKey, 2⟩] = some 1 := by decide

end Verif.Props
