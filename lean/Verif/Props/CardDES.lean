import Verif.Props.CardRSA
import Verif.Props.CryptoWorld
/-! C126: DES sessions on a card: what one cipher encrypts, another (or the same) decrypts, whatever programs run in between; and C125 for a ciphertext that
stays where it was written. -/
namespace Verif.Props
open Verif.Py Verif.Model Verif.Model.Card Verif.Spec Verif.Spec.Card

/-- The bytes of the DES key at an address, if one is there and set. -/
def keyBytesAt (w : Card) (k : Nat) : Option (List Nat) :=
  match w k with
  | .key (.des x) => x.key
  | _ => none

/-- **C126** (DES round trips on a card). A cipher initialised for encryption by a call that returned encrypts, after any program that does not initialise it
again; then after any program a cipher of the same algorithm, made before, is initialised for decryption with a key object that then holds the same bytes and an initial
vector with the same bytes; after any program that does not initialise it again it decrypts the message from whatever array then holds the ciphertext. -/
theorem C126_roundtrip {env : CryptoEnv} {fuel : Nat} {w0 w1 w2 w3 : Card} {a b : Nat} {alg : Int} (halg : alg = 1 ∨ alg = 4 ∨ alg = 5 ∨ alg = 8)
    (hxa : w0 a = .des (DESCipher.new alg)) (hxb : w0 b = .des (DESCipher.new alg))
    {P1 P2 : List Step} {outs1 outs2 : List (Except Err Card.Out)} (h0 : run env fuel w0 P1 = some (outs1, w1))
    {k r : Nat} {off len : Int} {iv : List Int} (hiv : listAt w1 r = some iv) (h1 : step env fuel w1 (.desInit a (some k) 2 r off len) = some (.ok .nothing, w2))
    (h2 : run env fuel w2 P2 = some (outs2, w3)) (hn : ∀ s ∈ P2, ¬ Inits a s)
    {rin rout : Nat} {inB outB : List Int} (hrin : listAt w3 rin = some inB) (hrout : listAt w3 rout = some outB)
    {io oo : Int} {il : Nat} (hin : Reachable inB.length io il) (hm : alg = 1 ∨ alg = 5 → il % 8 = 0) (hout : Reachable outB.length oo (if alg = 1 ∨ alg = 5 then il else (il / 8 + 1) * 8)) :
    ∃ ct out w4, step env fuel w3 (.desFinal a rin io il rout oo) = some (.ok (.int ct.length), w4) ∧ ct.length = (if alg = 1 ∨ alg = 5 then il else (il / 8 + 1) * 8) ∧ (∀ x ∈ ct, x < 256) ∧
      listAt w4 rout = some out ∧ Stored outB out oo ct.length (fun j => signedCell (ct.getD j 0)) ∧
      ∀ P3 outs3 w5, run env fuel w4 P3 = some (outs3, w5) →
      ∀ k' r' off' len' iv' w6, listAt w5 r' = some iv' → keyBytesAt w5 k' = keyBytesAt w1 k →
        (cellsFrom iv' off' 8).map valueOf = (cellsFrom iv off 8).map valueOf →
        step env fuel w5 (.desInit b (some k') 1 r' off' len') = some (.ok .nothing, w6) →
      ∀ P4 outs4 w7, run env fuel w6 P4 = some (outs4, w7) → (∀ s ∈ P4, ¬ Inits b s) →
      ∀ r1 r2 in1 out1 o1 o2, listAt w7 r1 = some in1 → listAt w7 r2 = some out1 → Reachable in1.length o1 ct.length → (cellsFrom in1 o1 ct.length).map valueOf = ct →
        Reachable out1.length o2 il →
        ∃ w8 out2, step env fuel w7 (.desFinal b r1 o1 ct.length r2 o2) = some (.ok (.int il), w8) ∧ listAt w8 r2 = some out2 ∧
          Stored out1 out2 o2 il (fun j => signedCell (((cellsFrom inB io il).map valueOf).getD j 0)) := by
  obtain ⟨_, key, bytes, iv0, h, rfl_, g2, g3, g4, g5, g6, g7, g8, g9, g10⟩ := des_session hxa h0 h1 h2 hn
  injection rfl_ with e; subst e
  rw [hiv] at g4
  injection g4 with e; subst e
  obtain ⟨ct, c1, c2, c3⟩ := C99_encrypt alg halg h bytes _ g9 g10 inB io il (.inr hin) (by simpa using hm)
  simp only [Int.toNat_natCast] at c1 c2
  have hml : ((cellsFrom inB io il).map valueOf).length = il := by simp [cellsFrom]
  obtain ⟨out, c', d1, d2⟩ := (c3 outB oo).1 (.inr (by rw [c2]; exact hout))
  obtain ⟨w4, d3, d4⟩ := (C116_des (env := env) (fuel := fuel) (prog := []) (outs := []) (w := w3) (w' := w3) rfl g8).2.2.2 rin io il rout oo inB outB hrin hrout
  simp only [historyOf, calls, List.filterMap_nil, List.foldl_nil, d1] at d3 d4
  have s1 : step env fuel w3 (.desFinal a rin io il rout oo) = some (.ok (.int ct.length), w4) := d3
  have hct : ∀ x ∈ ct, x < 256 := by
    obtain ⟨bs, hb, _, rfl⟩ := (encrypts_iff alg halg _ _ _ _).1 c1
    intro x hx
    obtain ⟨b, hb1, hb2⟩ := List.mem_flatten.1 hx
    exact ((chained_blocks alg bytes _ ⟨by simp [cellsFrom], values_lt _⟩ bs hb).1 b hb1).2 x hb2
  refine ⟨ct, out, w4, s1, c2, hct, d4, d2, ?_⟩
  intro P3 outs3 w5 h3 k' r' off' len' iv' w6 hiv' hkb hivs h4 P4 outs4 w7 h5 hn4 r1 r2 in1 out1 o1 o2 hr1 hr2 hin1 hct ho2
  obtain ⟨_, hA⟩ := run_join h2 s1 h3
  obtain ⟨_, hB⟩ := run_join h0 h1 hA
  obtain ⟨_, key', bytes', iv2, rfl_, d2, d3, d4, dec⟩ := C116_decrypts halg hxb hB h4 h5 hn4
  injection rfl_ with e; subst e
  rw [hiv'] at d4
  injection d4 with e; subst e
  have hb : bytes' = bytes := by
    simp only [keyBytesAt, g2, d2, g3, d3] at hkb
    injection hkb
  subst hb
  obtain ⟨out2, w8, e1, e2, e3⟩ := dec r1 r2 in1 out1 o1 ct.length o2 hr1 hr2 hin1 ((cellsFrom inB io il).map valueOf)
    (by
      intro x hx
      obtain ⟨y, _, rfl⟩ := List.mem_map.1 hx
      unfold valueOf
      omega) (by rw [hct, hivs]; exact c1) (by rw [hml]; exact ho2)
  rw [hml] at e1 e3
  exact ⟨w8, out2, e1, e2, e3⟩

/-- **C126** (DES round trips on a card, in place). The same when the cells the ciphertext was written to are not written by the programs in between. -/
theorem C126_in_place {env : CryptoEnv} {fuel : Nat} (hH : ∀ alg m, (env.hash alg m).length = (env.hash alg []).length) {w0 w1 w2 w3 : Card} {a b : Nat} {alg : Int}
    (halg : alg = 1 ∨ alg = 4 ∨ alg = 5 ∨ alg = 8) (hxa : w0 a = .des (DESCipher.new alg)) (hxb : w0 b = .des (DESCipher.new alg))
    {P1 P2 : List Step} {outs1 outs2 : List (Except Err Card.Out)} (h0 : run env fuel w0 P1 = some (outs1, w1))
    {k r : Nat} {off len : Int} {iv : List Int} (hiv : listAt w1 r = some iv) (h1 : step env fuel w1 (.desInit a (some k) 2 r off len) = some (.ok .nothing, w2))
    (h2 : run env fuel w2 P2 = some (outs2, w3)) (hn : ∀ s ∈ P2, ¬ Inits a s)
    {rin rout : Nat} {inB outB : List Int} (hrin : listAt w3 rin = some inB) (hrout : listAt w3 rout = some outB)
    {io : Int} {oo il : Nat} (hin : Reachable inB.length io il) (hm : alg = 1 ∨ alg = 5 → il % 8 = 0) (h0l : 0 < il)
    (hout : oo + (if alg = 1 ∨ alg = 5 then il else (il / 8 + 1) * 8) ≤ outB.length) :
    ∃ (n : Nat) (w4 : Card), step env fuel w3 (.desFinal a rin io il rout oo) = some (.ok (.int n), w4) ∧
      ∀ P3 outs3 w5, run env fuel w4 P3 = some (outs3, w5) →
      ∀ k' r' off' len' iv' w6, listAt w5 r' = some iv' → keyBytesAt w5 k' = keyBytesAt w1 k →
        (cellsFrom iv' off' 8).map valueOf = (cellsFrom iv off 8).map valueOf →
        step env fuel w5 (.desInit b (some k') 1 r' off' len') = some (.ok .nothing, w6) →
      ∀ P4 outs4 w7, run env fuel w6 P4 = some (outs4, w7) → (∀ s ∈ P4, ¬ Inits b s) →
      (∀ i < n, Spares env fuel w4 (P3 ++ .desInit b (some k') 1 r' off' len' :: P4) rout (oo + i)) →
      ∀ r2 out1 o2, listAt w7 r2 = some out1 → Reachable out1.length o2 il →
        ∃ w8 out2, step env fuel w7 (.desFinal b rout oo n r2 o2) = some (.ok (.int il), w8) ∧ listAt w8 r2 = some out2 ∧
          Stored out1 out2 o2 il (fun j => signedCell (((cellsFrom inB io il).map valueOf).getD j 0)) := by
  obtain ⟨ct, out, w4, s1, c2, c3, c4, c5, main⟩ := C126_roundtrip halg hxa hxb h0 hiv h1 h2 hn hrin hrout (oo := oo) hin hm (by unfold Reachable; omega)
  have hcl : oo + ct.length ≤ outB.length := by rw [c2]; exact hout
  have hc0 : 0 < ct.length := by rw [c2]; split <;> omega
  refine ⟨ct.length, w4, s1, ?_⟩
  intro P3 outs3 w5 h3 k' r' off' len' iv' w6 hiv' hkb hivs h4 P4 outs4 w7 h5 hn4 hsp r2 out1 o2 hr2 ho2
  obtain ⟨_, hall⟩ := run_join h3 h4 h5
  have hcells := CW.stored_cells _ _ _ _ _ c5 (by omega)
  have cell : ∀ i (hi : i < ct.length), ∃ l' v', listAt w7 rout = some l' ∧ l'.length = outB.length ∧ l'[oo + i]? = some v' ∧ valueOf v' = ct[i] := by
    intro i hi
    have hol : out.length = outB.length := c5.1
    have hv : out[oo + i]? = some out[oo + i] := List.getElem?_eq_getElem (by omega)
    obtain ⟨l', v', e1, e2, e3, e4, _⟩ := C118_program hH hall c4 hv (hsp i hi)
    refine ⟨l', v', e1, by omega, e3, ?_⟩
    have h1 : cellAt out ((oo : Int) + i) = signedCell (ct.getD i 0) := by
      have := congrArg (fun l => l[i]?) hcells
      simpa [cellsFrom, hi] using this
    have h2 : cellAt out ((oo : Int) + i) = out[oo + i] := by
      rw [← cellAt_names out ((oo : Int) + i) (oo + i) ⟨by omega, by left; omega⟩]
    have h3 : ct.getD i 0 = ct[i] := by simp [List.getD, hi]
    have h4 := c3 ct[i] (List.getElem_mem hi)
    rw [← h2, h1, h3] at e4
    unfold SameByte signedCell at e4
    unfold valueOf
    split at e4 <;> omega
  obtain ⟨l', _, e1, e2, _⟩ := cell 0 hc0
  obtain ⟨w8, out2, f1, f2, f3⟩ := main P3 outs3 w5 h3 k' r' off' len' iv' w6 hiv' hkb hivs h4 P4 outs4 w7 h5 hn4 rout r2 l' out1 oo o2 e1 hr2
    (by unfold Reachable; omega) (by
      apply List.ext_getElem (by simp [cellsFrom])
      intro i g1 g2
      obtain ⟨l'', v', q1, q2, q3, q4⟩ := cell i g2
      rw [e1] at q1
      injection q1 with q1
      subst q1
      have : cellAt l' ((oo : Int) + i) = l'[oo + i]'(by omega) := by
        rw [← cellAt_names l' ((oo : Int) + i) (oo + i) ⟨by omega, by left; omega⟩]
      rw [List.getElem?_eq_getElem (by omega)] at q3
      injection q3 with q3
      simp only [cellsFrom, List.getElem_map, List.getElem_range, this, q3, q4]) ho2
  exact ⟨w8, out2, f1, f2, f3⟩

/-- **C126** (the same key object). The bytes of a DES key are the same after every program without a call of `setKey` on it. -/
theorem C126_key_kept {env : CryptoEnv} {fuel : Nat} {w w' : Card} {prog : List Step} {outs : List (Except Err Card.Out)}
    (h : run env fuel w prog = some (outs, w')) {k : Nat} {bytes : List Nat} (hk : keyBytesAt w k = some bytes) (hs : ∀ s ∈ prog, ∀ r off, s ≠ .setKey k r off) :
    keyBytesAt w' k = some bytes := by
  obtain ⟨d, hd, hb⟩ : ∃ d, w k = .key (.des d) ∧ d.key = some bytes := by
    unfold keyBytesAt at hk
    split at hk
    · next x hx => exact ⟨x, hx, hk⟩
    · simp at hk
  obtain ⟨q, h1, h2, _⟩ := C120_des_key h hd
  rw [keyBytesAt, h1, h2 ?_]
  · exact hb
  · refine List.eq_nil_iff_forall_not_mem.2 fun op hop => ?_
    obtain ⟨v, s, hm, hc⟩ := mem_history hop
    have := hs s hm
    cases s <;> try (simp [desKeyCall] at hc; done)
    case setKey j r off =>
      simp only [desKeyCall] at hc
      split at hc
      · next hj => subst hj; exact this r off rfl
      · simp at hc

/-- **C125** (RSA with PKCS1 padding on a card, in place). The same when the ciphertext was written over zeros into cells that the programs in between do not write. -/
theorem C125_in_place {env : CryptoEnv} {fuel : Nat} (hH : ∀ alg m, (env.hash alg m).length = (env.hash alg []).length) (hls : env.longSuffix = true)
    {w w1 : Card} {p i j : Nat} {t : TheKey} (hg : step env fuel w (.genKeyPair p i j t) = some (.ok .nothing, w1))
    {size : Nat} (hsz : step env fuel w1 (.askKey i .getSize) = some (.ok (.int size), w1))
    {N : Nat} (hinv : Inverts env.ops N (.given t) (.given t)) (hN : N ≤ 256 ^ (size / 8))
    {a b : Nat} {xa xb : RSACipher} (ha : w1 a = .rsa xa) (haa : xa.base.algorithm = 10) (hb : w1 b = .rsa xb) (hba : xb.base.algorithm = 10)
    {P : List Step} {outs : List (Except Err Card.Out)} {w2 : Card} (hP : run env fuel w1 P = some (outs, w2))
    (hi : ∀ s ∈ P, ¬ SetsRSAKey i s) (hj : ∀ s ∈ P, ¬ SetsRSAKey j s) (hla : lastInit a P = some (some i, 2))
    {rin rout : Nat} {inB outB : List Int} (hrin : listAt w2 rin = some inB) (hrout : listAt w2 rout = some outB)
    {rnd : List Nat} (hrnd : ∀ b ∈ rnd, b < 256) {io n oo : Nat} (hin : io + n ≤ inB.length) {M : List Int} (hMe : range inB io n = M) (hM : M ≠ [])
    (hu : Unsigned M) (hlast : M.getLast hM ≠ 0) (hlen : n + 11 ≤ size / 8) (htop : (M.getLast hM + 1) * 256 ^ (size / 8 - 1) ≤ (N : Int))
    (hcount : size / 8 ≤ n + 3 + rnd.countP (· ≠ 0)) (hzero : range outB oo (size / 8) = List.replicate (size / 8) 0) :
    ∃ (m : Nat) (w3 : Card), step env fuel w2 (.rsaFinal a rnd rin io n rout oo) = some (.ok (.int m), w3) ∧
      ∀ P' outs' w4, run env fuel w3 P' = some (outs', w4) → (∀ s ∈ P', ¬ SetsRSAKey j s) → lastInit b (P ++ P') = some (some j, 1) →
        Untouched env fuel w3 P' rout oo (size / 8) →
        ∀ r2 out1 (o2 : Nat) rnd', listAt w4 r2 = some out1 → o2 + n ≤ out1.length →
          ∃ w5 out2, step env fuel w4 (.rsaFinal b rnd' rout oo (size / 8 : Nat) r2 o2) = some (.ok (.int n), w5) ∧ listAt w5 r2 = some out2 ∧
            Written out1 out2 o2 M := by
  have hol : oo + size / 8 ≤ outB.length := by
    have := congrArg List.length hzero
    simp only [range, List.length_take, List.length_drop, List.length_replicate] at this
    omega
  obtain ⟨ct, w3, out, s1, s2, s3, s4, main⟩ := C125_pkcs1 hls hg hsz hinv hN ha haa hb hba hP hi hj hla hrin hrout hrnd hin hMe hM hu hlast hlen htop hcount hol
  refine ⟨ct.length, w3, s1, ?_⟩
  intro P' outs' w4 hP' hj' hlb hun r2 out1 o2 rnd' hr2 ho2
  obtain ⟨q1, q2, q3, q4⟩ := s4
  have hz : ∀ k (hk : k < size / 8), outB[oo + k]? = some 0 := by
    intro k hk
    have := congrArg (fun l => l[k]?) hzero
    simpa [range, List.getElem?_take, List.getElem?_replicate, hk] using this
  obtain ⟨l', e1, e2, e3, e4⟩ := untouched_range hH hP' (by omega) s3 (by omega) hun
  refine main P' outs' w4 hP' hj' hlb rout r2 l' out1 oo o2 rnd' e1 hr2 (by omega) ?_ ho2
  rw [e4]
  apply List.ext_getElem?
  intro k
  by_cases hk : k < size / 8
  · rw [show (range out oo (size / 8))[k]? = out[oo + k]? by simp [range, hk]]
    by_cases hc : k < ct.length
    · rw [List.getElem?_append_left hc, q3 k hc, List.getElem?_eq_getElem hc]
    · rw [List.getElem?_append_right (by omega), List.getElem?_replicate, if_pos (by omega), q4 (oo + k) (by omega), hz k hk]
  · rw [List.getElem?_eq_none (by simp [range]; omega), List.getElem?_eq_none (by simp; omega)]

private def desEnv : CryptoEnv := ⟨true, true, ⟨fun _ _ => .error .typeError, fun _ _ => .error .typeError⟩, fun _ _ => []⟩
private def desMade : List Step :=
  [.newArray 1 [1, 2, 3, 4, 5, 6, 7, 8], .newArray 2 [9, 9, 9, 9, 9, 9, 9, 9], .newArray 3 (List.replicate 16 0), .buildKey 4 [3, 64, 0], .setKey 4 1 0,
   .getCipher 5 [4, 0], .getCipher 6 [4, 0], .newArray 7 (List.replicate 9 0), .buildKey 8 [3, 64, 0]]
/-- The initial vector is changed, the key cleared (which changes nothing), the other cipher used with the wrong key. -/
private def desMeanwhile : List Step := [.clearKey 4, .desInitDefault 6 (some 4) 1, .store 2 0 1, .setKey 8 1 0, .desInitDefault 6 (some 8) 2]
/-- The message is overwritten; the second key object gets the bytes, the vector its old first byte. -/
private def desAfterwards : List Step := [.store 2 0 9, .store 1 0 (-1), .setShort 3 0 7]

/-- A session meets the hypotheses: 5 bytes are encrypted by cipher 5 under key object 4 and decrypted by cipher 6 under key object 8. -/
example : (run desEnv 0 blank (desMade ++ [.desInit 5 (some 4) 2 2 0 8] ++ desMeanwhile ++ [.desFinal 5 1 (-5) 5 3 8] ++ desAfterwards ++ [.desInit 6 (some 8) 1 2 0 8] ++
      [.clearKey 8, .desFinal 6 3 8 8 7 2, .load 7 2, .load 7 6])).map (·.1.drop 9) = some
    [.ok .nothing, .ok .nothing, .ok .nothing, .ok .nothing, .ok .nothing, .ok .nothing, .ok (.int 8), .ok .nothing, .ok .nothing, .ok .nothing,
     .ok .nothing, .ok .nothing, .ok (.int 5), .ok (.int 4), .ok (.int 8)] := by decide +kernel

end Verif.Props
