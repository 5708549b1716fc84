import Verif.Props.CardHistory4
import Verif.Props.CardErr
/-! More of property C120: generating pairs and asking for the available memory on a card. -/
namespace Verif.Props
open Verif.Py Verif.Model Verif.Model.Card Verif.Spec Verif.Spec.Card

/-- The pair at `p` says where its keys are, and these say whether they are initialised. -/
structure PairSays (env : CryptoEnv) (fuel : Nat) (w : Card) (p : Nat) (x y : Bool) : Prop where
  pub : ∃ i, step env fuel w (.getPublic p) = some (.ok (.ref i), w) ∧ step env fuel w (.askKey i .isInitialized) = some (.ok (.bool x), w)
  priv : ∃ j, step env fuel w (.getPrivate p) = some (.ok (.ref j), w) ∧ step env fuel w (.askKey j .isInitialized) = some (.ok (.bool y), w)

theorem pair_says {env : CryptoEnv} {fuel : Nat} {w : Card} {p : Nat} {q : PairRef} (hq : w p = .pair q) {x y : Bool} (h : PairSays env fuel w p x y) :
    ∃ a b, w q.publicKey = .key a ∧ w q.privateKey = .key b ∧ a.isInitialized = x ∧ b.isInitialized = y := by
  obtain ⟨⟨i, h1, h2⟩, ⟨j, h3, h4⟩⟩ := h
  simp only [step, sem, hq, Option.map_some, Option.some.injEq, Prod.mk.injEq, Except.ok.injEq, Out.ref.injEq] at h1 h3
  obtain ⟨rfl, _⟩ := h1
  obtain ⟨rfl, _⟩ := h3
  simp only [step, sem, Option.map_some, Option.some.injEq, Prod.mk.injEq] at h2 h4
  have hi : ∃ a, w q.publicKey = .key a := by
    cases hi : w q.publicKey
    case key a => exact ⟨a, rfl⟩
    all_goals (simp only [hi, wrong] at h2; cases h2.1)
  have hj : ∃ b, w q.privateKey = .key b := by
    cases hj : w q.privateKey
    case key b => exact ⟨b, rfl⟩
    all_goals (simp only [hj, wrong] at h4; cases h4.1)
  obtain ⟨a, hi⟩ := hi
  obtain ⟨b, hj⟩ := hj
  simp only [hi] at h2
  simp only [hj] at h4
  refine ⟨a, b, hi, hj, ?_, ?_⟩
  · simpa [keyAsk] using h2.1
  · simpa [keyAsk] using h4.1

/-- **C120** (generating). `genKeyPair` is refused with CryptoException(ILLEGAL_VALUE) when either key of the pair is initialised, and then, or without the
library (NO_SUCH_ALGORITHM), nothing changes; a pair of two keys not initialised, made from an algorithm and a length, gets two new keys, both initialised,
of that length. -/
theorem C120_generate {env : CryptoEnv} {fuel : Nat} {w : Card} {p : Nat} {q : PairRef} (hq : w p = .pair q) {x y : Bool} (hs : PairSays env fuel w p x y)
    {i j : Nat} (hi : w i = .free) (hj : w j = .free) (hij : i ≠ j) (t : TheKey) :
    (x = true ∨ y = true → step env fuel w (.genKeyPair p i j t) = some (.error (.crypto 1), w)) ∧
    (x = false → y = false → env.pycrypto = false → step env fuel w (.genKeyPair p i j t) = some (.error (.crypto 3), w)) ∧
    (x = false → y = false → env.pycrypto = true →
      ((q.algorithm = none ∨ q.keylength = none) → step env fuel w (.genKeyPair p i j t) = some (.error .attributeError, w)) ∧
      ∀ alg len, (alg = 1 ∨ alg = 2) → q.algorithm = some alg → q.keylength = some len →
        ∃ w', step env fuel w (.genKeyPair p i j t) = some (.ok .nothing, w') ∧ PairSays env fuel w' p true true ∧
          step env fuel w' (.getPublic p) = some (.ok (.ref i), w') ∧ step env fuel w' (.getPrivate p) = some (.ok (.ref j), w') ∧
          step env fuel w' (.askKey i .getSize) = some (.ok (.int len), w') ∧ step env fuel w' (.askKey j .getSize) = some (.ok (.int len), w')) := by
  obtain ⟨a, b, ha, hb, rfl, rfl⟩ := pair_says hq hs
  have hpi : i ≠ p := by rintro rfl; rw [hq] at hi; cases hi
  have hpj : j ≠ p := by rintro rfl; rw [hq] at hj; cases hj
  have hst : step env fuel w (.genKeyPair p i j t) = some ((genPair env p q a b i j t).1, w.put (genPair env p q a b i j t).2) := by
    simp only [step, sem, hq, hi, hj, ha, hb, if_neg hij, Option.map_some]
  rw [hst]
  refine ⟨fun h => ?_, fun h1 h2 h3 => ?_, fun h1 h2 h3 => ⟨fun h => ?_, fun alg len hal hqa hql => ?_⟩⟩
  · simp only [genPair, if_pos h, put]; rfl
  · simp only [genPair, h1, h2, h3, Bool.false_eq_true, or_self, if_false, not_false_eq_true, if_true, put]; rfl
  · simp only [genPair, h1, h2, h3, Bool.false_eq_true, or_self, if_false, not_true_eq_false]
    rcases h with h | h <;> rw [h]
    · rfl
    · cases q.algorithm <;> rfl
  · have hne : ¬ (alg ≠ 1 ∧ alg ≠ 2) := by omega
    have hg : genPair env p q a b i j t = (.ok .nothing, [(i, .key (.rsa ((RSAKey.new true len).setTheKey true env.longSuffix t).2)),
        (j, .key (.rsa ((RSAKey.new false len).setTheKey true env.longSuffix t).2)), (p, .pair ⟨some alg, some len, i, j⟩)]) := by
      simp only [genPair, h1, h2, h3, hqa, hql, hne, Bool.false_eq_true, or_self, if_false, not_true_eq_false]
    rw [hg]
    refine ⟨_, rfl, ?_⟩
    generalize hw : put w _ = w'
    have gp : w' p = .pair ⟨some alg, some len, i, j⟩ := by rw [← hw]; simp [put]
    have gi : w' i = .key (.rsa ((RSAKey.new true len).setTheKey true env.longSuffix t).2) := by rw [← hw]; simp [put, hpi, hij]
    have gj : w' j = .key (.rsa ((RSAKey.new false len).setTheKey true env.longSuffix t).2) := by rw [← hw]; simp [put, hpj]
    have s1 : step env fuel w' (.getPublic p) = some (.ok (.ref i), w') := by simp only [step, sem, gp, Option.map_some, put]
    have s2 : step env fuel w' (.getPrivate p) = some (.ok (.ref j), w') := by simp only [step, sem, gp, Option.map_some, put]
    refine ⟨⟨⟨i, s1, ?_⟩, ⟨j, s2, ?_⟩⟩, s1, s2, ?_, ?_⟩
    all_goals simp only [step, sem, gi, gj, Option.map_some, put]; rfl

example : ∃ env fuel prog outs w, run env fuel blank prog = some (outs, w) ∧ w 1 = .pair ⟨some 1, some 512, 2, 3⟩ ∧ PairSays env fuel w 1 false false :=
  ⟨⟨true, true, ⟨fun _ _ => .ok 0, fun _ _ => .ok 0⟩, fun _ _ => []⟩, 0, [.newPair 1 2 3 1 512], _, _, rfl, rfl, ⟨2, rfl, rfl⟩, ⟨3, rfl, rfl⟩⟩

/-- **C120** (available memory). `getAvailableMemory` writes 7F FF into two cells from the offset and succeeds; with one cell left it writes 7F and raises
NameError, at or after the end NameError and nothing changes. -/
theorem C120_memory {env : CryptoEnv} {fuel : Nat} {w : Card} {r : Nat} {l : List Int} (hl : listAt w r = some l) (off : Nat) (m : Int) :
    (off + 2 ≤ l.length → ∃ w' l', step env fuel w (.availableMemory r off m) = some (.ok .nothing, w') ∧ listAt w' r = some l' ∧ Written l l' off [127, 255]) ∧
    (off + 1 = l.length → ∃ w' l', step env fuel w (.availableMemory r off m) = some (.error .nameError, w') ∧ listAt w' r = some l' ∧ Written l l' off [127]) ∧
    (l.length ≤ off → ∃ w', step env fuel w (.availableMemory r off m) = some (.error .nameError, w') ∧ listAt w' r = some l) := by
  obtain ⟨_, h1, h2, h3, _⟩ := C68_memory l off m
  refine ⟨fun h => ?_, fun h => ?_, fun h => ?_⟩
  · obtain ⟨b, hb, hw⟩ := h1 h
    exact ⟨w.put [(r, .array b)], b, by simp only [step, sem, onArray_eq, hl, Option.elim, arrayTo, hb, Except.map, Option.map_some, Option.getD_some], array_listAt (put_one _ _ _), hw⟩
  · obtain ⟨b, hb, hw⟩ := h2 h
    exact ⟨w.put [(r, .array b)], b, by simp only [step, sem, onArray_eq, hl, Option.elim, arrayTo, hb, Except.map, Option.map_some, Option.getD_some], array_listAt (put_one _ _ _), hw⟩
  · exact ⟨w.put [(r, .array l)], by simp only [step, sem, onArray_eq, hl, Option.elim, arrayTo, h3 h, Except.map, Option.map_some, Option.getD_some], array_listAt (put_one _ _ _)⟩

end Verif.Props
