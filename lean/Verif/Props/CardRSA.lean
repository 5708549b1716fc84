import Verif.Props.CardHistory5
import Verif.Props.CardSession
import Verif.Props.SignVerify
/-! C125: RSA sessions on a card. A pair is generated, ciphers are initialised with its keys, and programs run before, between and after. -/
namespace Verif.Props
open Verif.Py Verif.Model Verif.Model.Card Verif.Spec Verif.Spec.Card

/-! ### Specification -/

/-- The calls that set or clear the RSA key at `k`. -/
def SetsRSAKey (k : Nat) : Step → Prop
  | .setRSA j .. => j = k
  | .setTheKey j _ => j = k
  | .clearKey j => j = k
  | _ => False

/-- The arguments of a call of `init` on the RSA cipher at `c`: the key's address (if it is a key) and the mode. -/
def initArgs (c : Nat) : Step → Option (Option Nat × Int)
  | .rsaInit j k mode => if j = c then some (k, mode) else none
  | _ => none

/-- The arguments of the last call of `init` on the RSA cipher at `c` in a program. -/
def lastInit (c : Nat) (prog : List Step) : Option (Option Nat × Int) := (prog.filterMap (initArgs c)).getLast?

/-! ### Proofs -/

theorem lastInit_cons (c : Nat) (s : Step) (ss : List Step) : lastInit c (s :: ss) = (lastInit c ss).or (initArgs c s) := by
  unfold lastInit
  rw [List.filterMap_cons]
  cases h : initArgs c s with
  | none => simp
  | some v =>
    simp only [List.getLast?_cons]
    cases (ss.filterMap (initArgs c)).getLast? <;> rfl

theorem lastInit_skip (c : Nat) (s : Step) (h : initArgs c s = none) (l l' : List Step) : lastInit c (l ++ s :: l') = lastInit c (l ++ l') := by
  simp [lastInit, h]

theorem run_split {env : CryptoEnv} {fuel : Nat} {w w2 : Card} {s : Step} {ss : List Step} {outs : List (Except Err Card.Out)}
    (h : run env fuel w (s :: ss) = some (outs, w2)) :
    ∃ e outs', sem env fuel w s = some e ∧ run env fuel (w.put e.2) ss = some (outs', w2) := by
  simp only [run] at h
  cases he : step env fuel w s with
  | none => simp [he] at h
  | some x =>
    obtain ⟨o, w1⟩ := x
    simp only [he] at h
    cases hr : run env fuel w1 ss with
    | none => simp [hr] at h
    | some y =>
      simp only [hr, Option.map_some, Option.some.injEq, Prod.mk.injEq] at h
      obtain ⟨e, h1, h2, h3⟩ := step_sem he
      refine ⟨e, y.1, h1, ?_⟩
      rw [h3, hr, ← h.2]

theorem run_join {env : CryptoEnv} {fuel : Nat} : ∀ {P : List Step} {w w2 w3 w4 : Card} {outs outs' : List (Except Err Card.Out)} {s : Step} {P' : List Step}
    {o : Except Err Card.Out}, run env fuel w P = some (outs, w2) → step env fuel w2 s = some (o, w3) → run env fuel w3 P' = some (outs', w4) →
    ∃ outs'', run env fuel w (P ++ s :: P') = some (outs'', w4) := by
  intro P
  induction P with
  | nil =>
    intro w w2 w3 w4 outs outs' s P' o h1 h2 h3
    simp only [run, Option.some.injEq, Prod.mk.injEq] at h1
    obtain ⟨_, rfl⟩ := h1
    exact ⟨_, by simp only [List.nil_append, run, h2, h3, Option.map_some]; rfl⟩
  | cons t P ih =>
    intro w w2 w3 w4 outs outs' s P' o h1 h2 h3
    simp only [run] at h1
    cases he : step env fuel w t with
    | none => simp [he] at h1
    | some x =>
      simp only [he] at h1
      cases hr : run env fuel x.2 P with
      | none => simp [hr] at h1
      | some y =>
        simp only [hr, Option.map_some, Option.some.injEq, Prod.mk.injEq] at h1
        obtain ⟨_, rfl⟩ := h1
        obtain ⟨outs'', h⟩ := ih (outs := y.1) (w2 := y.2) (by rw [hr]) h2 h3
        exact ⟨_, by simp only [List.cons_append, run, he, h, Option.map_some]; rfl⟩

theorem rsaKey_step {env : CryptoEnv} {fuel : Nat} {w : Card} {k : Nat} {x : RSAKey} (hx : w k = .key (.rsa x)) {s : Step} (hs : ¬ SetsRSAKey k s) {e : Eff}
    (he : sem env fuel w s = some e) : w.put e.2 k = .key (.rsa x) := by
  refine (key_step hx s e he).2 ?_
  cases s <;> try rfl
  case setRSA j ex r off len =>
    have : j ≠ k := hs
    cases ex <;> simp [keyCall, this]
  case setTheKey j t =>
    have : j ≠ k := hs
    simp [keyCall, this]
  case clearKey j =>
    have : j ≠ k := hs
    simp [keyCall, this]

/-- An RSA key no call of a program sets or clears is what it was. -/
theorem rsaKey_kept {env : CryptoEnv} {fuel : Nat} {k : Nat} {x : RSAKey} : ∀ {prog : List Step} {w w' : Card} {outs : List (Except Err Card.Out)},
    run env fuel w prog = some (outs, w') → w k = .key (.rsa x) → (∀ s ∈ prog, ¬ SetsRSAKey k s) → w' k = .key (.rsa x) := by
  intro prog
  induction prog with
  | nil =>
    intro w w' outs h hx _
    simp only [run, Option.some.injEq, Prod.mk.injEq] at h
    rw [← h.2]; exact hx
  | cons s ss ih =>
    intro w w' outs h hx hs
    obtain ⟨e, _, h1, h2⟩ := run_split h
    exact ih h2 (rsaKey_step hx (hs s (by simp)) h1) fun t ht => hs t (by simp [ht])

/-- What a program leaves of an RSA cipher: as before without a call of `init`; after one with an initialised key nobody touches, that key and that mode. -/
theorem rsa_last {env : CryptoEnv} {fuel : Nat} {c k : Nat} {y : RSAKey} (hy : y.initialized = true) {mode : Int} (hm : mode = 1 ∨ mode = 2) :
    ∀ {prog : List Step} {w w' : Card} {outs : List (Except Err Card.Out)} {x : RSACipher},
    run env fuel w prog = some (outs, w') → w c = .rsa x → w k = .key (.rsa y) → (∀ s ∈ prog, ¬ SetsRSAKey k s) →
    ∃ q, w' c = .rsa q ∧ q.base.algorithm = x.base.algorithm ∧ (lastInit c prog = none → q = x) ∧
      (lastInit c prog = some (some k, mode) → q.base.initialized = true ∧ q.base.mode = some mode ∧ q.theKey = some k) := by
  have hm' : mode = MODE_ENCRYPT ∨ mode = MODE_DECRYPT := by unfold MODE_ENCRYPT MODE_DECRYPT; omega
  intro prog
  induction prog with
  | nil =>
    intro w w' outs x h hx _ _
    simp only [run, Option.some.injEq, Prod.mk.injEq] at h
    exact ⟨x, by rw [← h.2]; exact hx, rfl, fun _ => rfl, fun h => by simp [lastInit] at h⟩
  | cons s ss ih =>
    intro w w' outs x h hx hk hs
    obtain ⟨e, _, h1, h2⟩ := run_split h
    have hk1 := rsaKey_step hk (hs s (by simp)) h1
    have hst := card_rsa_step hx s e h1
    have hs' : ∀ t ∈ ss, ¬ SetsRSAKey k t := fun t ht => hs t (by simp [ht])
    cases ha : initArgs c s with
    | none =>
      have hc : rsaCall c w s = none := by
        cases s <;> try rfl
        case rsaInit j k' m =>
          simp only [initArgs] at ha
          simp only [rsaCall]
          split at ha
          · simp at ha
          · next hj => rw [if_neg hj]
      obtain ⟨q, q1, q2, q3, q4⟩ := ih h2 (hst.2 hc) hk1 hs'
      rw [lastInit_cons, ha, Option.or_none]
      exact ⟨q, q1, q2, q3, q4⟩
    | some v =>
      obtain ⟨k', m⟩ := v
      have hc : rsaCall c w s = some ⟨keysOn w, keyArgAt w k', m⟩ := by
        cases s <;> try (simp [initArgs] at ha; done)
        case rsaInit j k'' m' =>
          simp only [initArgs] at ha
          simp only [rsaCall]
          split at ha
          · next hj =>
            injection ha with ha
            injection ha with ha1 ha2
            rw [if_pos hj, ha1, ha2]
          · simp at ha
      have hx1 := (hst.1 _ hc).2
      obtain ⟨q, q1, q2, q3, q4⟩ := ih h2 hx1 hk1 hs'
      refine ⟨q, q1, ?_, ?_, ?_⟩
      · rw [q2]
        simp only [RSACipher.init, CipherBase.init]
        cases keyArgAt w k' with
        | notKey => rfl
        | key r =>
          by_cases g1 : (keysOn w r).isInitialized = true <;> by_cases g2 : m = MODE_ENCRYPT ∨ m = MODE_DECRYPT <;>
            cases g3 : keysOn w r <;> rw [g3] at g1 <;> simp [g1, g2, g3]
      · intro hl
        rw [lastInit_cons, ha] at hl
        cases lastInit c ss <;> simp at hl
      · intro hl
        rw [lastInit_cons, ha] at hl
        cases hls : lastInit c ss with
        | some v => rw [hls] at hl; exact q4 (by rw [hls]; simpa using hl)
        | none =>
          rw [hls] at hl
          simp only [Option.none_or, Option.some.injEq, Prod.mk.injEq] at hl
          obtain ⟨rfl, rfl⟩ := hl
          rw [q3 hls]
          have e1 : keyArgAt w (some k) = .key k := by simp [keyArgAt, hk]
          have e2 : keysOn w k = .rsa y := by simp [keysOn, hk]
          simp [RSACipher.init, CipherBase.init, e1, e2, hm', show (KeyObj.rsa y).isInitialized = true from hy]

theorem rsa_ready {env : CryptoEnv} {fuel : Nat} {c k : Nat} {y : RSAKey} (hy : y.initialized = true) {mode : Int} (hm : mode = 1 ∨ mode = 2)
    {prog : List Step} {w w' : Card} {outs : List (Except Err Card.Out)} {x : RSACipher}
    (h : run env fuel w prog = some (outs, w')) (hx : w c = .rsa x) (hk : w k = .key (.rsa y)) (hs : ∀ s ∈ prog, ¬ SetsRSAKey k s)
    (hl : lastInit c prog = some (some k, mode)) {h' : KeyHandle} (ht : y.theKey = some h') :
    ∃ q, w' c = .rsa q ∧ RSAReady (keysOn w') q x.base.algorithm mode y.isPublic y.size h' := by
  obtain ⟨q, q1, q2, _, q4⟩ := rsa_last hy hm h hx hk hs
  obtain ⟨a, b, d⟩ := q4 hl
  refine ⟨q, q1, a, q2, b, k, y, d, ?_, rfl, rfl, ht⟩
  simp only [keysOn, rsaKey_kept h hk hs]

theorem generated {env : CryptoEnv} {fuel : Nat} {w w1 : Card} {p i j : Nat} {t : TheKey} (hg : step env fuel w (.genKeyPair p i j t) = some (.ok .nothing, w1)) :
    ∃ len : Int, w1 i = .key (.rsa ((RSAKey.new true len).setTheKey true env.longSuffix t).2) ∧
      w1 j = .key (.rsa ((RSAKey.new false len).setTheKey true env.longSuffix t).2) := by
  obtain ⟨e, he, h1, rfl⟩ := step_sem hg
  simp only [sem] at he
  split at he
  · next q hp hi hj =>
    split at he
    · next a b ha hb =>
      split at he
      · simp only [wrong, Option.some.injEq] at he
        subst he
        simp at h1
      · next hij =>
        simp only [Option.some.injEq] at he
        subst he
        have hpi : i ≠ p := by rintro rfl; rw [hp] at hi; cases hi
        have hpj : j ≠ p := by rintro rfl; rw [hp] at hj; cases hj
        unfold genPair at h1 ⊢
        split at h1
        · simp at h1
        · next c1 =>
          split at h1
          · simp at h1
          · next c2 =>
            rw [if_neg c1, if_neg c2]
            cases hqa : q.algorithm with
            | none => simp [hqa] at h1
            | some alg =>
              cases hql : q.keylength with
              | none => simp [hqa, hql] at h1
              | some len =>
                simp only [hqa, hql] at h1 ⊢
                split at h1
                · simp at h1
                · next c3 =>
                  rw [if_neg c3]
                  have hpc : env.pycrypto = true := by simpa using c2
                  rw [hpc]
                  refine ⟨len, ?_, ?_⟩
                  · simp [put, hpi, hij]
                  · simp [put, hpj]
    · simp only [wrong, Option.some.injEq] at he
      subst he
      simp at h1
  · simp only [wrong, Option.some.injEq] at he
    subst he
    simp at h1

theorem listAt_eq {w : Card} {r : Nat} {l : List Int} (h : listAt w r = some l) : w r = .array l := by
  unfold listAt at h
  split at h
  · next hh => rw [hh]; simp only [Option.some.injEq] at h; rw [h]
  · simp at h

theorem card_final {env : CryptoEnv} {fuel : Nat} {w : Card} {c : Nat} {q : RSACipher} (hq : w c = .rsa q) {rnd : List Nat} {r r' : Nat} {off len off' : Int}
    {l l' : List Int} (hl : listAt w r = some l) (hl' : listAt w r' = some l') {o : Except Err Int} {out : List Int}
    (h : q.doFinal (keysOn w) env.ops env.longSuffix rnd l off len l' off' = some (o, out)) :
    ∃ w', step env fuel w (.rsaFinal c rnd r off len r' off') = some (o.map .int, w') ∧ listAt w' r' = some out := by
  have := (C116_rsa (env := env) (fuel := fuel) (prog := []) (outs := []) (w := w) (w' := w) rfl hq).2.2 rnd r off len r' off' l l' hl hl'
  simp only [historyOf, calls, List.filterMap_nil, rsaInits, List.foldl_nil] at this
  rw [h] at this
  cases hs : step env fuel w (.rsaFinal c rnd r off len r' off') with
  | none => simp [hs] at this
  | some y =>
    rw [hs] at this
    simp only [Option.map_some, Option.some.injEq, Prod.mk.injEq] at this
    exact ⟨y.2, by rw [← this.1], this.2⟩

/-- **C125** (RSA with PKCS1 padding on a card). A key pair is generated; a program runs that neither sets nor clears the public key and whose last call of
`init` on the cipher at `a` is with that key, for encryption. The cipher then encrypts the message; and after any further program the cipher at `b`, when the
last call of `init` on it, before or after the encryption, was with the private key, for decryption, and nobody set or cleared that key, gives the message back
from whatever array then holds the ciphertext completed with zeros. (Python 2; a library whose operations invert each other for the generated key.) -/
theorem C125_pkcs1 {env : CryptoEnv} {fuel : Nat} (hls : env.longSuffix = true) {w w1 : Card} {p i j : Nat} {t : TheKey}
    (hg : step env fuel w (.genKeyPair p i j t) = some (.ok .nothing, w1))
    {size : Nat} (hsz : step env fuel w1 (.askKey i .getSize) = some (.ok (.int size), w1))
    {N : Nat} (hinv : Inverts env.ops N (.given t) (.given t)) (hN : N ≤ 256 ^ (size / 8))
    {a b : Nat} {xa xb : RSACipher} (ha : w1 a = .rsa xa) (haa : xa.base.algorithm = 10) (hb : w1 b = .rsa xb) (hba : xb.base.algorithm = 10)
    {P : List Step} {outs : List (Except Err Card.Out)} {w2 : Card} (hP : run env fuel w1 P = some (outs, w2))
    (hi : ∀ s ∈ P, ¬ SetsRSAKey i s) (hj : ∀ s ∈ P, ¬ SetsRSAKey j s) (hla : lastInit a P = some (some i, 2))
    {rin rout : Nat} {inB outB : List Int} (hrin : listAt w2 rin = some inB) (hrout : listAt w2 rout = some outB)
    {rnd : List Nat} (hrnd : ∀ b ∈ rnd, b < 256) {io n oo : Nat} (hin : io + n ≤ inB.length) {M : List Int} (hMe : range inB io n = M) (hM : M ≠ [])
    (hu : Unsigned M) (hlast : M.getLast hM ≠ 0) (hlen : n + 11 ≤ size / 8) (htop : (M.getLast hM + 1) * 256 ^ (size / 8 - 1) ≤ (N : Int))
    (hcount : size / 8 ≤ n + 3 + rnd.countP (· ≠ 0)) (hout : oo + size / 8 ≤ outB.length) :
    ∃ ct w3 out, step env fuel w2 (.rsaFinal a rnd rin io n rout oo) = some (.ok (.int ct.length), w3) ∧ ct.length ≤ size / 8 ∧
      listAt w3 rout = some out ∧ Written outB out oo ct ∧
      ∀ P' outs' w4, run env fuel w3 P' = some (outs', w4) → (∀ s ∈ P', ¬ SetsRSAKey j s) → lastInit b (P ++ P') = some (some j, 1) →
        ∀ r1 r2 in1 out1 (o1 o2 : Nat) rnd', listAt w4 r1 = some in1 → listAt w4 r2 = some out1 → o1 + size / 8 ≤ in1.length →
          range in1 o1 (size / 8) = ct ++ List.replicate (size / 8 - ct.length) 0 → o2 + n ≤ out1.length →
          ∃ w5 out2, step env fuel w4 (.rsaFinal b rnd' r1 o1 (size / 8 : Nat) r2 o2) = some (.ok (.int n), w5) ∧ listAt w5 r2 = some out2 ∧
            Written out1 out2 o2 M := by
  have hsz8 : ((size : Int) / 8).toNat = size / 8 := by omega
  have hMl : M.length = n := by rw [← hMe]; simp only [range, List.length_take, List.length_drop]; omega
  obtain ⟨len, hki, hkj⟩ := generated hg
  obtain rfl : len = size := by
    simp only [step, sem, hki, Option.map_some, Option.some.injEq, Prod.mk.injEq, Except.ok.injEq] at hsz
    have := hsz.1
    simp only [keyAsk, Out.int.injEq] at this
    exact this
  obtain ⟨qa, qa1, qa2⟩ := rsa_ready (by rfl) (.inr rfl) hP ha hki hi hla (h' := .given t) rfl
  rw [haa] at qa2
  obtain ⟨b1, _, b3⟩ := C63_block rnd hrnd (size : Int) M (by omega)
  obtain ⟨B, hB⟩ := b3 (by omega)
  have hblk := b1 B hB
  have hBN : arrayToLong B < N := by
    have := block_below _ M B hblk hM hu
    obtain ⟨_, _, _, _, hl⟩ := hblk
    have hl : (B.length : Int) = (size : Int) / 8 := hl
    rw [show B.length - 1 = size / 8 - 1 by omega] at this
    omega
  have main := fun (heap' : KeyHeap) (c' : RSACipher) (hd : RSAReady heap' c' 10 1 false size (.given t)) (rnd' : List Nat) =>
    C64_pkcs1_roundtrip (keysOn w2) heap' qa c' true size _ _ N qa2 hd env.ops hinv (by rw [hsz8]; exact hN) rnd rnd' hrnd inB outB io n oo hin
      (by rw [hMe]; exact hu) B (by rw [hMe]; exact hB) hBN (by rw [hsz8]; exact hout)
  -- a decrypting cipher, only to learn the ciphertext
  obtain ⟨c0, h0, r0⟩ : ∃ (h0 : KeyHeap) (c0 : RSACipher), RSAReady h0 c0 10 1 false size (.given t) :=
    ⟨fun _ => .rsa ((RSAKey.new false (size : Int)).setTheKey true env.longSuffix t).2, ⟨⟨10, true, some 1⟩, some 0⟩, rfl, rfl, rfl, 0, _, rfl, rfl, rfl, rfl, rfl⟩
  obtain ⟨ct, out, e1, e2, _, e4, _⟩ := main _ _ r0 []
  rw [← hls] at e1
  obtain ⟨w3, s1, s2⟩ := card_final (fuel := fuel) qa1 hrin hrout e1
  refine ⟨ct, w3, out, s1, by omega, s2, e2, ?_⟩
  intro P' outs' w4 hP' hj' hlb r1 r2 in1 out1 o1 o2 rnd' hr1 hr2 hin1 hct ho2
  obtain ⟨_, hall⟩ := run_join hP s1 hP'
  obtain ⟨qb, qb1, qb2⟩ := rsa_ready (by rfl) (.inl rfl) hall hb hkj (mode := 1) (by
      intro s hs
      simp only [List.mem_append, List.mem_cons] at hs
      rcases hs with hs | rfl | hs
      · exact hj s hs
      · exact id
      · exact hj' s hs) (by rw [lastInit_skip _ _ rfl]; exact hlb) (h' := .given t) rfl
  rw [hba] at qb2
  obtain ⟨ct', out', e1', hw', _, _, hdec⟩ := main _ _ qb2 rnd'
  rw [← hls] at e1'
  rw [e1] at e1'
  have hcl : ct'.length = ct.length := by
    injection e1' with e; injection e with e _; injection e with e; omega
  have hsame : ct' = ct := by
    injection e1' with e; injection e with _ e
    subst e
    apply List.ext_getElem hcl
    intro i g1 g2
    have q1 := e2.2.2.1 i g2
    have q2 := hw'.2.2.1 i g1
    rw [q1] at q2
    injection q2 with q2
    exact q2.symm
  subst hsame
  obtain ⟨out2, f1, f2⟩ := (hdec in1 out1 o1 o2 (by rw [hsz8]; exact hin1) (by rw [hsz8]; exact hct) M 0 (by rw [hMe]; simp)
    (by rw [List.getLast?_eq_some_getLast hM]; simpa using hlast) (by rw [hMl]; exact ho2)).1 hM
  rw [hsz8, ← hls, hMl] at f1
  obtain ⟨w5, t1, t2⟩ := card_final (fuel := fuel) qb1 hr1 hr2 f1
  exact ⟨w5, out2, t1, t2, f2⟩

/-- **C125** (RSA without padding on a card). The same for blocks of size/8 bytes whose number is below the modulus; they come back without the zeros at their
end, a block of zeros as one zero. -/
theorem C125_nopad {env : CryptoEnv} {fuel : Nat} (hls : env.longSuffix = true) {w w1 : Card} {p i j : Nat} {t : TheKey}
    (hg : step env fuel w (.genKeyPair p i j t) = some (.ok .nothing, w1))
    {size : Nat} (hsz : step env fuel w1 (.askKey i .getSize) = some (.ok (.int size), w1)) (h0 : 0 < size / 8)
    {N : Nat} (hinv : Inverts env.ops N (.given t) (.given t)) (hN : N ≤ 256 ^ (size / 8))
    {a b : Nat} {xa xb : RSACipher} (ha : w1 a = .rsa xa) (haa : xa.base.algorithm = 12) (hb : w1 b = .rsa xb) (hba : xb.base.algorithm = 12)
    {P : List Step} {outs : List (Except Err Card.Out)} {w2 : Card} (hP : run env fuel w1 P = some (outs, w2))
    (hi : ∀ s ∈ P, ¬ SetsRSAKey i s) (hj : ∀ s ∈ P, ¬ SetsRSAKey j s) (hla : lastInit a P = some (some i, 2))
    {rin rout : Nat} {inB outB : List Int} (hrin : listAt w2 rin = some inB) (hrout : listAt w2 rout = some outB)
    {rnd : List Nat} {io oo : Nat} (hin : io + size / 8 ≤ inB.length) {M : List Int} {z : Nat} (hMe : range inB io (size / 8) = M ++ List.replicate z 0)
    (hu : Unsigned M) (hlast : M.getLast? ≠ some 0) (hval : arrayToLong (M ++ List.replicate z 0) < N) (hout : oo + size / 8 ≤ outB.length) :
    ∃ ct w3 out, step env fuel w2 (.rsaFinal a rnd rin io (size / 8 : Nat) rout oo) = some (.ok (.int ct.length), w3) ∧ ct.length ≤ size / 8 ∧
      listAt w3 rout = some out ∧ Written outB out oo ct ∧
      ∀ P' outs' w4, run env fuel w3 P' = some (outs', w4) → (∀ s ∈ P', ¬ SetsRSAKey j s) → lastInit b (P ++ P') = some (some j, 1) →
        ∀ r1 r2 in1 out1 (o1 o2 : Nat) rnd', listAt w4 r1 = some in1 → listAt w4 r2 = some out1 → o1 + size / 8 ≤ in1.length →
          range in1 o1 (size / 8) = ct ++ List.replicate (size / 8 - ct.length) 0 → o2 + M.length < out1.length →
          ∃ w5 out2, step env fuel w4 (.rsaFinal b rnd' r1 o1 (size / 8 : Nat) r2 o2) = some (.ok (.int (if M = [] then 1 else (M.length : Int))), w5) ∧
            listAt w5 r2 = some out2 ∧ Written out1 out2 o2 (if M = [] then [0] else M) := by
  have hsz8 : ((size : Int) / 8).toNat = size / 8 := by omega
  obtain ⟨len, hki, hkj⟩ := generated hg
  obtain rfl : len = size := by
    simp only [step, sem, hki, Option.map_some, Option.some.injEq, Prod.mk.injEq, Except.ok.injEq] at hsz
    have := hsz.1
    simp only [keyAsk, Out.int.injEq] at this
    exact this
  obtain ⟨qa, qa1, qa2⟩ := rsa_ready (by rfl) (.inr rfl) hP ha hki hi hla (h' := .given t) rfl
  rw [haa] at qa2
  have hu' : Unsigned (M ++ List.replicate z 0) := by
    intro x hx
    rcases List.mem_append.1 hx with hx | hx
    · exact hu x hx
    · rw [(List.mem_replicate.1 hx).2]; decide
  have main := fun (heap' : KeyHeap) (c' : RSACipher) (hd : RSAReady heap' c' 12 1 false size (.given t)) (rnd' : List Nat) =>
    C64_nopad_roundtrip (keysOn w2) heap' qa c' true size _ _ N qa2 hd env.ops hinv (by rw [hsz8]; exact hN) (by omega) rnd rnd' inB outB io oo
      (by rw [hsz8]; exact hin) (by rw [hsz8, hMe]; exact hu') (by rw [hsz8, hMe]; exact hval) (by rw [hsz8]; exact hout)
  obtain ⟨c0, h0, r0⟩ : ∃ (h0 : KeyHeap) (c0 : RSACipher), RSAReady h0 c0 12 1 false size (.given t) :=
    ⟨fun _ => .rsa ((RSAKey.new false (size : Int)).setTheKey true env.longSuffix t).2, ⟨⟨12, true, some 1⟩, some 0⟩, rfl, rfl, rfl, 0, _, rfl, rfl, rfl, rfl, rfl⟩
  obtain ⟨ct, out, e1, e2, _, e4, _⟩ := main _ _ r0 []
  rw [← hls, hsz8] at e1
  obtain ⟨w3, s1, s2⟩ := card_final (fuel := fuel) qa1 hrin hrout e1
  refine ⟨ct, w3, out, s1, by omega, s2, e2, ?_⟩
  intro P' outs' w4 hP' hj' hlb r1 r2 in1 out1 o1 o2 rnd' hr1 hr2 hin1 hct ho2
  obtain ⟨_, hall⟩ := run_join hP s1 hP'
  obtain ⟨qb, qb1, qb2⟩ := rsa_ready (by rfl) (.inl rfl) hall hb hkj (mode := 1) (by
      intro s hs
      simp only [List.mem_append, List.mem_cons] at hs
      rcases hs with hs | rfl | hs
      · exact hj s hs
      · exact id
      · exact hj' s hs) (by rw [lastInit_skip _ _ rfl]; exact hlb) (h' := .given t) rfl
  rw [hba] at qb2
  obtain ⟨ct', out', e1', hw', _, _, hdec⟩ := main _ _ qb2 rnd'
  rw [← hls, hsz8] at e1'
  rw [e1] at e1'
  have hcl : ct'.length = ct.length := by
    injection e1' with e; injection e with e _; injection e with e; omega
  have hsame : ct' = ct := by
    injection e1' with e; injection e with _ e
    subst e
    apply List.ext_getElem hcl
    intro i g1 g2
    have q1 := e2.2.2.1 i g2
    have q2 := hw'.2.2.1 i g1
    rw [q1] at q2
    injection q2 with q2
    exact q2.symm
  subst hsame
  obtain ⟨out2, f1, f2⟩ := hdec in1 out1 o1 o2 (by rw [hsz8]; exact hin1) (by rw [hsz8]; exact hct) M z (by rw [hsz8]; exact hMe) hlast ho2
  rw [hsz8, ← hls] at f1
  obtain ⟨w5, t1, t2⟩ := card_final (fuel := fuel) qb1 hr1 hr2 f1
  exact ⟨w5, out2, t1, t2, f2⟩

theorem final_keys (env : CryptoEnv) (w : Card) (q : RSACipher) (rnd : List Nat) (l : List Int) (off len : Int) (l' : List Int) (off' : Int) :
    q.doFinal (keyArg w q.theKey).2 env.ops env.longSuffix rnd l off len l' off' = q.doFinal (keysOn w) env.ops env.longSuffix rnd l off len l' off' := by
  have hm : q.theKey.map (keyArg w q.theKey).2 = q.theKey.map (keysOn w) := by
    cases q.theKey with
    | none => rfl
    | some r =>
      simp only [Option.map_some, keyArg, keysOn]
      cases w r <;> rfl
  unfold RSACipher.doFinal
  rw [hm]

theorem step_final {env : CryptoEnv} {fuel : Nat} {w : Card} {c d : Nat} {q q' : RSACipher} (hq : w c = .rsa q) (hq' : w d = .rsa q')
    (h : ∀ rnd l off len l' off', q.doFinal (keysOn w) env.ops env.longSuffix rnd l off len l' off' = q'.doFinal (keysOn w) env.ops env.longSuffix rnd l off len l' off')
    (rnd : List Nat) (r r' : Nat) (off len off' : Int) :
    step env fuel w (.rsaFinal c rnd r off len r' off') = step env fuel w (.rsaFinal d rnd r off len r' off') := by
  have : sem env fuel w (.rsaFinal c rnd r off len r' off') = sem env fuel w (.rsaFinal d rnd r off len r' off') := by
    simp only [sem, hq, hq']
    cases w r <;> try rfl
    cases w r' <;> try rfl
    simp only [final_keys, h]
  simp only [step, this]

/-- **C125** (signatures on a card). After a key pair is generated and any program that neither sets nor clears its keys, on either Python and with any library: a
cipher last initialised with the private key for encryption ("signing") does, whatever the arguments, exactly what one of the same algorithm last initialised
with the public key for encryption does; so does, without padding, one last initialised with the public key for decryption ("verifying"). -/
theorem C125_signature {env : CryptoEnv} {fuel : Nat} {w w1 : Card} {p i j : Nat} {t : TheKey}
    (hg : step env fuel w (.genKeyPair p i j t) = some (.ok .nothing, w1)) {s v : Nat} {xs xv : RSACipher} (hs : w1 s = .rsa xs) (hv : w1 v = .rsa xv)
    (halg : xs.base.algorithm = xv.base.algorithm) {P : List Step} {outs : List (Except Err Card.Out)} {w2 : Card} (hP : run env fuel w1 P = some (outs, w2))
    (hi : ∀ s ∈ P, ¬ SetsRSAKey i s) (hj : ∀ s ∈ P, ¬ SetsRSAKey j s) (hls : lastInit s P = some (some j, 2))
    (hlv : lastInit v P = some (some i, 2) ∨ lastInit v P = some (some i, 1) ∧ xv.base.algorithm ≠ 10)
    (rnd : List Nat) (r r' : Nat) (off len off' : Int) :
    step env fuel w2 (.rsaFinal s rnd r off len r' off') = step env fuel w2 (.rsaFinal v rnd r off len r' off') := by
  obtain ⟨len', hki, hkj⟩ := generated hg
  obtain ⟨qs, qs1, qs2⟩ := rsa_ready (by rfl) (.inr rfl) hP hs hkj hj hls (h' := .given t) rfl
  rw [halg] at qs2
  rcases hlv with hlv | ⟨hlv, hne⟩
  · obtain ⟨qv, qv1, qv2⟩ := rsa_ready (by rfl) (.inr rfl) hP hv hki hi hlv (h' := .given t) rfl
    exact step_final qs1 qv1 (fun _ _ _ _ _ _ => ready_doFinal_eq qs2 qv2 (fun _ => rfl) (by simp) _ _ _ _ _ _ _ _) rnd r r' off len off'
  · obtain ⟨qv, qv1, qv2⟩ := rsa_ready (by rfl) (.inl rfl) hP hv hki hi hlv (h' := .given t) rfl
    exact step_final qs1 qv1 (fun _ _ _ _ _ _ => ready_doFinal_eq qs2 qv2 (fun h => absurd h hne) (by simp [RSAKey.setTheKey, RSAKey.afterSet, RSAKey.new]) _ _ _ _ _ _ _ _)
      rnd r r' off len off'

/-- **C125** (the generated keys in a cipher). After a pair is generated, whatever program runs that neither sets nor clears the key: a cipher whose last call of `init`
was with the public (`pub`) or the private key of the pair is one that holds the generated key and that mode, and `doFinal` on the card answers and writes what
such a cipher does; so all that is known of ready ciphers (C64, C98, C107, C109) holds on the card. -/
theorem C125_cipher {env : CryptoEnv} {fuel : Nat} {w w1 : Card} {p i j : Nat} {t : TheKey} (hg : step env fuel w (.genKeyPair p i j t) = some (.ok .nothing, w1))
    {size : Int} (hsz : step env fuel w1 (.askKey i .getSize) = some (.ok (.int size), w1)) {c : Nat} {x : RSACipher} (hx : w1 c = .rsa x)
    {P : List Step} {outs : List (Except Err Card.Out)} {w2 : Card} (hP : run env fuel w1 P = some (outs, w2)) (pub : Bool) {mode : Int} (hm : mode = 1 ∨ mode = 2)
    (hs : ∀ s ∈ P, ¬ SetsRSAKey (if pub then i else j) s) (hl : lastInit c P = some (some (if pub then i else j), mode)) :
    ∃ q heap, RSAReady heap q x.base.algorithm mode pub size (.given t) ∧
      ∀ rnd r off len r' off' l l', listAt w2 r = some l → listAt w2 r' = some l' →
        (step env fuel w2 (.rsaFinal c rnd r off len r' off')).map (fun y => (y.1, listAt y.2 r')) =
          (q.doFinal heap env.ops env.longSuffix rnd l off len l' off').map fun y => (y.1.map .int, some y.2) := by
  obtain ⟨len, hki, hkj⟩ := generated hg
  obtain rfl : len = size := by
    simp only [step, sem, hki, Option.map_some, Option.some.injEq, Prod.mk.injEq, Except.ok.injEq] at hsz
    have := hsz.1
    simp only [keyAsk, Out.int.injEq] at this
    exact this
  have fin : ∀ q, w2 c = .rsa q → ∀ rnd r off len r' off' l l', listAt w2 r = some l → listAt w2 r' = some l' →
        (step env fuel w2 (.rsaFinal c rnd r off len r' off')).map (fun y => (y.1, listAt y.2 r')) =
          (q.doFinal (keysOn w2) env.ops env.longSuffix rnd l off len l' off').map fun y => (y.1.map .int, some y.2) := fun q hq =>
    (C116_rsa (env := env) (fuel := fuel) (prog := []) (outs := []) (w := w2) (w' := w2) rfl hq).2.2
  cases pub with
  | true =>
    obtain ⟨q, q1, q2⟩ := rsa_ready (by rfl) hm hP hx hki (by simpa using hs) (by simpa using hl) (h' := .given t) rfl
    exact ⟨q, keysOn w2, q2, fin q q1⟩
  | false =>
    obtain ⟨q, q1, q2⟩ := rsa_ready (by rfl) hm hP hx hkj (by simpa using hs) (by simpa using hl) (h' := .given t) rfl
    exact ⟨q, keysOn w2, q2, fin q q1⟩

/-- **C125** (Python 3). Under Python 3 no message encrypted with PKCS1 padding can be decrypted on the card: whatever the programs, decrypting a correct block raises
CryptoException(ILLEGAL_VALUE) and leaves the output array as it is. -/
theorem C125_py3 {env : CryptoEnv} {fuel : Nat} (hls : env.longSuffix = false) {w w1 : Card} {p i j : Nat} {t : TheKey}
    (hg : step env fuel w (.genKeyPair p i j t) = some (.ok .nothing, w1)) {size : Int} (hsz : step env fuel w1 (.askKey i .getSize) = some (.ok (.int size), w1))
    {c : Nat} {x : RSACipher} (hx : w1 c = .rsa x) (ha : x.base.algorithm = 10) {P : List Step} {outs : List (Except Err Card.Out)} {w2 : Card}
    (hP : run env fuel w1 P = some (outs, w2)) (hs : ∀ s ∈ P, ¬ SetsRSAKey j s) (hl : lastInit c P = some (some j, 1))
    {r r' : Nat} {l l' : List Int} (hr : listAt w2 r = some l) (hr' : listAt w2 r' = some l') {off n : Nat} (hin : off + n ≤ l.length) (off' : Int) (rnd : List Nat)
    {y : Nat} (hdec : env.ops.dec (.given t) (arrayToLong (range l off n)) = .ok y) {k : Int} {M B : List Int} (hB : IsPKCS1Block k M B) (hy : (y : Int) = arrayToLong B) :
    ∃ w3, step env fuel w2 (.rsaFinal c rnd r off n r' off') = some (.error (.crypto 1), w3) ∧ listAt w3 r' = some l' := by
  obtain ⟨q, heap, q1, q2⟩ := C125_cipher hg hsz hx hP false (.inl rfl) (by simpa using hs) (by simpa using hl)
  rw [ha] at q1
  have := q2 rnd r off n r' off' l l' hr hr'
  rw [hls, C64_py3_pkcs1 heap q size _ q1 env.ops rnd l l' off n off' hin y hdec k M B hB hy] at this
  cases hst : step env fuel w2 (.rsaFinal c rnd r off n r' off') with
  | none => simp [hst] at this
  | some z =>
    rw [hst] at this
    simp only [Option.map_some, Option.some.injEq, Prod.mk.injEq] at this
    exact ⟨z.2, congrArg some (Prod.ext this.1 rfl), this.2⟩

/-! ### Examples -/

/-- **C125** with textbook RSA: for a true RSA key, the hypothesis about the library holds. -/
theorem C125_textbook {env : CryptoEnv} (he : env.ops = textbookRSA) {t : TheKey} (ht : IsRSAKey t) : Inverts env.ops t.n (.given t) (.given t) := by
  rw [he]; exact (C98_inverts t ht).1

private def toyEnv : CryptoEnv := ⟨true, true, textbookRSA, fun _ _ => []⟩
private def toyKey : TheKey := ⟨3233, 17, 2753⟩
private def toySetup : List Step := [.newPair 1 2 3 1 16, .getCipher 4 [12, 0], .getCipher 5 [12, 0], .newArray 10 [9, 65, 7, 9], .newArray 11 [0, 0, 0, 0]]
/-- The message is stored after the cipher was initialised; the first `init` of cipher 4 is with the other key. -/
private def toyBefore : List Step := [.rsaInit 4 (some 7) 1, .newArray 12 [0, 0, 0], .rsaInit 4 (some 6) 2, .store 10 1 66]
/-- The old pair's keys are set and cleared, the message is overwritten, and only now the second cipher initialised. -/
private def toyAfter : List Step := [.setTheKey 2 toyKey, .clearKey 2, .store 10 1 0, .rsaInit 5 (some 7) 1]

/-- The whole session computed: textbook RSA with the key (3233, 17, 2753). -/
example : (run toyEnv 0 blank (toySetup ++ [.genKeyPair 1 6 7 toyKey] ++ toyBefore ++ [.rsaFinal 4 [] 10 1 2 11 1] ++ toyAfter ++
      [.rsaFinal 5 [] 11 1 2 12 0, .load 12 0, .load 12 1])).map (·.1.drop 15) = some [.ok (.int 2), .ok (.int 66), .ok (.int 7)] := by decide +kernel

/-- It meets the hypotheses of `C125_nopad`. -/
example : ∃ outs0 w w1 outs w2 xa xb, run toyEnv 0 blank toySetup = some (outs0, w) ∧
    step toyEnv 0 w (.genKeyPair 1 6 7 toyKey) = some (.ok .nothing, w1) ∧ step toyEnv 0 w1 (.askKey 6 .getSize) = some (.ok (.int (16 : Nat)), w1) ∧
    Inverts toyEnv.ops 3233 (.given toyKey) (.given toyKey) ∧ w1 4 = .rsa xa ∧ xa.base.algorithm = 12 ∧ w1 5 = .rsa xb ∧ xb.base.algorithm = 12 ∧
    run toyEnv 0 w1 toyBefore = some (outs, w2) ∧ (∀ s ∈ toyBefore, ¬ SetsRSAKey 6 s ∧ ¬ SetsRSAKey 7 s) ∧ lastInit 4 toyBefore = some (some 6, 2) ∧
    listAt w2 10 = some [9, 66, 7, 9] ∧ range [9, 66, 7, 9] 1 2 = [66, 7] ++ List.replicate 0 0 ∧ arrayToLong ([66, 7] ++ List.replicate 0 0) < (3233 : Nat) ∧
    lastInit 5 (toyBefore ++ toyAfter) = some (some 7, 1) ∧ (∀ s ∈ toyAfter, ¬ SetsRSAKey 7 s) := by
  refine ⟨_, _, _, _, _, _, _, rfl, rfl, rfl, C125_textbook (env := toyEnv) (t := toyKey) rfl ⟨61, 53, by norm_num, by norm_num, by decide, rfl, by decide, by decide⟩, rfl, rfl, rfl, rfl, rfl, ?_, rfl,
    rfl, rfl, by decide +kernel, rfl, ?_⟩
  · simp [toyBefore, SetsRSAKey]
  · simp [toyAfter, SetsRSAKey]

private def shiftEnv : CryptoEnv := ⟨true, true, ⟨fun _ x => .ok ((x + 5) % 256 ^ 16).toNat, fun _ x => .ok ((x - 5) % 256 ^ 16).toNat⟩, fun _ _ => []⟩
private def shiftSetup : List Step := [.newPair 1 2 3 1 128, .getCipher 4 [10, 0], .getCipher 5 [10, 0], .newArray 10 [9, 66, 7, 9], .newArray 11 (List.replicate 20 0)]

/-- A library whose operations invert each other below 256^16. -/
theorem shift_inverts (h h' : KeyHandle) : Inverts shiftEnv.ops (256 ^ 16) h h' := by
  intro x hx
  refine ⟨(x + 5) % 256 ^ 16, Nat.mod_lt _ (by decide), ?_, ?_⟩
  · show Except.ok _ = Except.ok _
    congr 1
  · show Except.ok _ = Except.ok _
    congr 1
    omega

/-- With PKCS1 padding: the session computed, and the hypotheses of `C125_pkcs1`. -/
example : (run shiftEnv 0 blank (shiftSetup ++ [.genKeyPair 1 6 7 toyKey] ++ toyBefore ++ [.rsaFinal 4 (List.replicate 11 0xAA) 10 1 2 11 1] ++ toyAfter ++
      [.rsaFinal 5 [] 11 1 16 12 0, .load 12 0, .load 12 1])).map (·.1.drop 15) = some [.ok (.int 2), .ok (.int 66), .ok (.int 7)] := by decide +kernel

example : ∃ outs0 w w1 outs w2 xa xb, run shiftEnv 0 blank shiftSetup = some (outs0, w) ∧
    step shiftEnv 0 w (.genKeyPair 1 6 7 toyKey) = some (.ok .nothing, w1) ∧ step shiftEnv 0 w1 (.askKey 6 .getSize) = some (.ok (.int (128 : Nat)), w1) ∧
    Inverts shiftEnv.ops (256 ^ 16) (.given toyKey) (.given toyKey) ∧ w1 4 = .rsa xa ∧ xa.base.algorithm = 10 ∧ w1 5 = .rsa xb ∧ xb.base.algorithm = 10 ∧
    run shiftEnv 0 w1 toyBefore = some (outs, w2) ∧ (∀ s ∈ toyBefore, ¬ SetsRSAKey 6 s ∧ ¬ SetsRSAKey 7 s) ∧ lastInit 4 toyBefore = some (some 6, 2) ∧
    listAt w2 10 = some [9, 66, 7, 9] ∧ range [9, 66, 7, 9] 1 2 = [66, 7] ∧ ((7 : Int) + 1) * 256 ^ 15 ≤ (256 ^ 16 : Nat) ∧
    128 / 8 ≤ 2 + 3 + (List.replicate 11 0xAA).countP (· ≠ 0) ∧ lastInit 5 (toyBefore ++ toyAfter) = some (some 7, 1) ∧ (∀ s ∈ toyAfter, ¬ SetsRSAKey 7 s) := by
  refine ⟨_, _, _, _, _, _, _, rfl, rfl, rfl, shift_inverts _ _, rfl, rfl, rfl, rfl, rfl, ?_, rfl, rfl, rfl, by decide, by decide, rfl, ?_⟩
  · simp [toyBefore, SetsRSAKey]
  · simp [toyAfter, SetsRSAKey]

/-- A session for `C125_signature`: cipher 4 signs with the private key 7, cipher 5 encrypts with the public key 6. -/
example : ∃ outs0 w w1 outs w2 xs xv, run toyEnv 0 blank toySetup = some (outs0, w) ∧
    step toyEnv 0 w (.genKeyPair 1 6 7 toyKey) = some (.ok .nothing, w1) ∧ w1 4 = .rsa xs ∧ w1 5 = .rsa xv ∧ xs.base.algorithm = xv.base.algorithm ∧
    run toyEnv 0 w1 [.rsaInit 4 (some 7) 2, .rsaInit 5 (some 6) 1, .rsaFinal 4 [] 10 1 2 11 1, .clearKey 2] = some (outs, w2) := by
  refine ⟨_, _, _, _, _, _, _, rfl, rfl, rfl, rfl, rfl, rfl⟩

/-- `C125_py3`: the same session under Python 3, with the correct ciphertext of a padded block stored by hand: ILLEGAL_VALUE. -/
private def py3Env : CryptoEnv := ⟨true, false, shiftEnv.ops, fun _ _ => []⟩
example : (run py3Env 0 blank (shiftSetup ++ [.genKeyPair 1 6 7 toyKey, .rsaInit 5 (some 7) 1, .newArray 13 [5, 2, 1, 1, 1, 1, 1, 1, 1, 1, 1, 1, 1, 0, 66, 7],
    .rsaFinal 5 [] 13 0 16 11 0])).map (·.1.drop 8) = some [.error (.crypto 1)] := by decide +kernel
example : IsPKCS1Block 16 [66, 7] [0, 2, 1, 1, 1, 1, 1, 1, 1, 1, 1, 1, 1, 0, 66, 7] := ⟨List.replicate 11 1, rfl, by decide, by decide, rfl⟩
example : py3Env.ops.dec (.given toyKey) (arrayToLong (range [5, 2, 1, 1, 1, 1, 1, 1, 1, 1, 1, 1, 1, 0, 66, 7] 0 16)) =
    .ok (arrayToLong [0, 2, 1, 1, 1, 1, 1, 1, 1, 1, 1, 1, 1, 0, 66, 7]).toNat := by decide +kernel

end Verif.Props
