import Verif.Model.DESSetters
import Verif.Props.DESAlg
/-! C79, C80: the setters of the pyDes objects, and padding arguments of single calls. -/
namespace Verif.Props
open Verif.Py Verif.Model Verif.Model.PyDes Verif.Spec.DES

/-- On whole blocks the padding settings do not matter to `crypt`. -/
theorem crypt_whole (b b' : Base) (Kn : List PyDes.Bits) (hm : b.mode = b'.mode) (hi : b.iv = b'.iv) (m : List Nat) (h8 : m.length % 8 = 0) (e : Bool) :
    (Des.mk b Kn).crypt m e = (Des.mk b' Kn).crypt m e := by
  unfold Des.crypt
  simp only
  rw [if_neg (show ¬ m.length % 8 ≠ 0 from fun h => h h8), if_neg (show ¬ m.length % 8 ≠ 0 from fun h => h h8), hm, hi]

theorem padData_pkcs5 (b : Base) (m : List Nat) (padmode : Option Nat) (hp : padmode.getD b.padmode = 2) :
    b.padData m none padmode = .ok (m ++ List.replicate (8 - m.length % 8) (8 - m.length % 8)) := by
  unfold Base.padData
  simp only
  rw [hp, if_neg (by simp), if_neg (by decide), if_pos (show 2 = PAD_PKCS5 from rfl)]

/-! ### C79: single DES -/

/-- The last value that the calls `cs` set, according to `f` (the value a call sets, if any), or `init`. -/
def latest {α} (f : PyDes.Call → Option α) (init : α) (cs : List PyDes.Call) : α := (cs.filterMap f).getLast?.getD init

theorem latest_nil {α} (f : PyDes.Call → Option α) (i : α) : latest f i [] = i := rfl

theorem latest_cons {α} (f : PyDes.Call → Option α) (i : α) (c : PyDes.Call) (cs : List PyDes.Call) :
    latest f i (c :: cs) = latest f ((f c).getD i) cs := by
  unfold latest
  cases h : f c with
  | none => simp [h]
  | some v =>
    rw [List.filterMap_cons_some h, List.getLast?_cons]
    simp

def setsMode : PyDes.Call → Option Nat
  | .setMode m => some m
  | _ => none
def setsPadding : PyDes.Call → Option (Option Nat)
  | .setPadding p => some p
  | _ => none
def setsPadMode : PyDes.Call → Option Nat
  | .setPadMode m => some m
  | _ => none
/-- `setIV` accepts eight bytes only. -/
def setsIV : PyDes.Call → Option (List Nat)
  | .setIV v => if v.length = 8 then some v else none
  | _ => none
/-- The key used by the cipher: the first eight bytes of a key of at least eight bytes. -/
def setsCipherKey : PyDes.Call → Option (List Nat)
  | .setKey k => if 8 ≤ k.length then some (k.take 8) else none
  | _ => none
/-- The key of getKey. -/
def setsKey : PyDes.Call → Option (List Nat)
  | .setKey k => some k
  | _ => none

theorem run_eq (cs : List PyDes.Call) (key ck : List Nat) (mode : Nat) (iv : List Nat) (pad : Option Nat) (padmode : Nat) :
    (PDes.mk key ⟨⟨mode, iv, pad, padmode⟩, createSubKeys ck⟩).run cs =
      ⟨latest setsKey key cs, ⟨⟨latest setsMode mode cs, latest setsIV iv cs, latest setsPadding pad cs, latest setsPadMode padmode cs⟩,
        createSubKeys (latest setsCipherKey ck cs)⟩⟩ := by
  induction cs generalizing key ck mode iv pad padmode with
  | nil => rfl
  | cons c cs ih =>
    rw [PDes.run]
    simp only [latest_cons]
    cases c with
    | setKey k =>
      simp only [setsKey, setsMode, setsIV, setsPadding, setsPadMode, setsCipherKey, Option.getD_none, Option.getD_some]
      unfold PDes.call PDes.setKey
      by_cases h : k.length < 8
      · simp only [if_pos h]
        rw [if_neg (by omega), ih]
        rfl
      · simp only [if_neg h]
        rw [if_pos (by omega), createSubKeys_take k, ih]
        rfl
    | setMode m =>
      simp only [setsKey, setsMode, setsIV, setsPadding, setsPadMode, setsCipherKey, Option.getD_none, Option.getD_some]
      exact ih _ _ _ _ _ _
    | setPadding m =>
      simp only [setsKey, setsMode, setsIV, setsPadding, setsPadMode, setsCipherKey, Option.getD_none, Option.getD_some]
      exact ih _ _ _ _ _ _
    | setPadMode m =>
      simp only [setsKey, setsMode, setsIV, setsPadding, setsPadMode, setsCipherKey, Option.getD_none, Option.getD_some]
      exact ih _ _ _ _ _ _
    | setIV v =>
      simp only [setsKey, setsMode, setsIV, setsPadding, setsPadMode, setsCipherKey, Option.getD_none, Option.getD_some]
      unfold PDes.call PDes.setIV
      simp only
      by_cases h : v.length = 8
      · rw [(desSetIV_cases _ v).1 h, if_pos h]
        exact ih _ _ _ _ _ _
      · rw [(desSetIV_cases _ v).2 h, if_neg h]
        exact ih _ _ _ _ _ _
    | encrypt m p q =>
      simp only [setsKey, setsMode, setsIV, setsPadding, setsPadMode, setsCipherKey, Option.getD_none, Option.getD_some]
      exact ih _ _ _ _ _ _
    | decrypt m p q =>
      simp only [setsKey, setsMode, setsIV, setsPadding, setsPadMode, setsCipherKey, Option.getD_none, Option.getD_some]
      exact ih _ _ _ _ _ _

/-- C79. After any history of calls - setters with accepted or refused values, encryptions and decryptions - a `des` object has the
last accepted mode, IV, padding and padding mode and ciphers with the last accepted key; when the constructor would accept these
values together, it is the object the constructor makes from them. -/
theorem C79_des (key : List Nat) (mode : Nat) (iv : List Nat) (pad : Option Nat) (padmode : Nat) (o : PDes)
    (h : PDes.new key mode iv pad padmode = .ok o) (cs : List PyDes.Call) :
    (o.run cs).key = latest setsKey key cs ∧ (o.run cs).des.base.mode = latest setsMode mode cs ∧ (o.run cs).des.base.iv = latest setsIV iv cs ∧
    (o.run cs).des.base.padding = latest setsPadding pad cs ∧ (o.run cs).des.base.padmode = latest setsPadMode padmode cs ∧
    (¬ ((latest setsPadding pad cs).isSome = true ∧ latest setsPadMode padmode cs = 2) →
      Des.new (latest setsCipherKey key cs) (latest setsMode mode cs) (latest setsIV iv cs) (latest setsPadding pad cs) (latest setsPadMode padmode cs) =
        .ok (o.run cs).des) := by
  unfold PDes.new at h
  by_cases hc : key.length = 8 ∧ (iv = [] ∨ iv.length = 8) ∧ ¬ (pad.isSome = true ∧ padmode = 2)
  · rw [(C59_constructor key mode iv pad padmode).1 hc] at h
    injection h with h
    subst h
    rw [run_eq]
    refine ⟨rfl, rfl, rfl, rfl, rfl, ?_⟩
    intro hp
    have hk : (latest setsCipherKey key cs).length = 8 := by
      have hmem : ∀ v ∈ cs.filterMap setsCipherKey, v.length = 8 := by
        intro v hv
        obtain ⟨c, _, hcv⟩ := List.mem_filterMap.1 hv
        unfold setsCipherKey at hcv
        split at hcv
        · split at hcv
          · injection hcv with hcv
            subst hcv
            simp; omega
          · cases hcv
        · cases hcv
      unfold latest
      cases hg : (cs.filterMap setsCipherKey).getLast? with
      | none => exact hc.1
      | some v => exact hmem v (List.mem_of_getLast? hg)
    have hi : latest setsIV iv cs = [] ∨ (latest setsIV iv cs).length = 8 := by
      have hmem : ∀ v ∈ cs.filterMap setsIV, v.length = 8 := by
        intro v hv
        obtain ⟨c, _, hcv⟩ := List.mem_filterMap.1 hv
        unfold setsIV at hcv
        split at hcv
        · split at hcv
          · injection hcv with hcv
            subst hcv
            assumption
          · cases hcv
        · cases hcv
      unfold latest
      cases hg : (cs.filterMap setsIV).getLast? with
      | none => exact hc.2.1
      | some v => exact .inr (hmem v (List.mem_of_getLast? hg))
    exact (C59_constructor _ _ _ _ _).1 ⟨hk, hi, hp⟩
  · rw [(C59_constructor key mode iv pad padmode).2 hc] at h
    cases h

/-- C79. What setKey does with a key of the wrong length, which the constructor refuses: a shorter key raises IndexError, is
returned by getKey from then on, and the object goes on ciphering with the old key; of a longer key the first eight bytes
are used. -/
theorem C79_setKey_lengths (o : PDes) (k : List Nat) :
    (k.length < 8 → o.setKey k = (.error .indexError, ⟨k, o.des⟩)) ∧
    (8 ≤ k.length → o.setKey k = (.ok (), ⟨k, (o.setKey (k.take 8)).2.des⟩) ∧ (o.setKey (k.take 8)).1 = .ok ()) := by
  constructor
  · intro h
    unfold PDes.setKey
    rw [if_pos h]
  · intro h
    unfold PDes.setKey
    rw [if_neg (show ¬ k.length < 8 by omega), if_neg (show ¬ (k.take 8).length < 8 by simp; omega), ← createSubKeys_take]
    exact ⟨rfl, rfl⟩

/-- C79. Setters can bring a `des` object into a state that the constructor refuses: a pad character together with PKCS5. The character
is then ignored: the messages are encrypted as by an object with PKCS5 and no pad character. -/
theorem C79_pad_and_pkcs5 (key iv : List Nat) (mode : Nat) (hk : key.length = 8) (hiv : IsBlock iv) (c : Nat) (m : List Nat) :
    ∃ o, PDes.new key mode iv (some c) 1 = .ok o ∧ Des.new key mode iv (some c) 2 = .error .valueError ∧
      (∃ d, Des.new key mode iv none 2 = .ok d ∧ (o.run [.setPadMode 2]).des.encrypt m none none = d.encrypt m none none) := by
  have hn := (C59_constructor key mode iv (some c) 1).1 ⟨hk, .inr hiv.1, by simp⟩
  have hd := (C59_constructor key mode iv none 2).1 ⟨hk, .inr hiv.1, by simp⟩
  refine ⟨⟨key, _⟩, by unfold PDes.new; rw [hn], (C59_constructor key mode iv (some c) 2).2 (by simp), _, hd, ?_⟩
  rw [run_eq]
  show (Des.mk ⟨mode, iv, some c, 2⟩ (createSubKeys key)).encrypt m none none = _
  unfold Des.encrypt
  rw [padData_pkcs5 ⟨mode, iv, some c, 2⟩ m none rfl, padData_pkcs5 ⟨mode, iv, none, 2⟩ m none rfl]
  exact crypt_whole ⟨mode, iv, some c, 2⟩ ⟨mode, iv, none, 2⟩ _ rfl rfl _ (by simp only [List.length_append, List.length_replicate]; omega) true

/-! ### C80: padding arguments of a single call -/

theorem padData_length (b : Base) (m m' : List Nat) (pad padmode : Option Nat) (hp : padmode.getD b.padmode = 1 ∨ padmode.getD b.padmode = 2)
    (h : b.padData m pad padmode = .ok m') : m'.length % 8 = 0 := by
  unfold Base.padData at h
  simp only at h
  split at h
  · cases h
  · split at h
    · split at h
      · injection h with h; subst h; assumption
      · split at h
        · cases h
        · injection h with h; subst h
          simp only [List.length_append, List.length_replicate]; omega
    · rename_i hn
      have h2 : padmode.getD b.padmode = 2 := by
        rcases hp with hp | hp
        · exact absurd hp hn
        · exact hp
      rw [if_pos (show padmode.getD b.padmode = PAD_PKCS5 from h2)] at h
      injection h with h; subst h
      simp only [List.length_append, List.length_replicate]; omega

/-- The object with the padding settings of the call. -/
def withPadding (d : Des) (pad padmode : Option Nat) : Des :=
  ⟨⟨d.base.mode, d.base.iv, if pad.isSome then pad else d.base.padding, padmode.getD d.base.padmode⟩, d.Kn⟩

theorem orElse_if (a b : Option Nat) : (a <|> b) = if a.isSome then a else b := by cases a <;> rfl

/-- C80. The pad character and padding mode given to one call of `encrypt` have the effect, for this call only, of an object made
with them (padding modes PAD_NORMAL and PAD_PKCS5); a pad character with PKCS5 is refused, whichever of the two comes from the
object. -/
theorem C80_encrypt (d : Des) (m : List Nat) (pad padmode : Option Nat) (hp : padmode.getD d.base.padmode = 1 ∨ padmode.getD d.base.padmode = 2) :
    (pad.isSome = true ∧ padmode.getD d.base.padmode = 2 → d.encrypt m pad padmode = .error .valueError) ∧
    (¬ (pad.isSome = true ∧ padmode.getD d.base.padmode = 2) → d.encrypt m pad padmode = (withPadding d pad padmode).encrypt m none none) := by
  constructor
  · intro h
    unfold Des.encrypt Base.padData
    simp only
    rw [if_pos (show pad.isSome = true ∧ padmode.getD d.base.padmode = PAD_PKCS5 from h)]
  · intro h
    have he : d.base.padData m pad padmode = (withPadding d pad padmode).base.padData m none none := by
      unfold Base.padData withPadding
      simp only [Option.getD_none]
      rw [if_neg (show ¬ (pad.isSome = true ∧ padmode.getD d.base.padmode = PAD_PKCS5) from h), if_neg (show ¬ ((none : Option Nat).isSome = true ∧ padmode.getD d.base.padmode = PAD_PKCS5) by simp)]
      simp only [orElse_if]
      rfl
    unfold Des.encrypt
    rw [← he]
    cases hc : d.base.padData m pad padmode with
    | error e => rfl
    | ok m' => exact crypt_whole d.base (withPadding d pad padmode).base d.Kn rfl rfl m' (padData_length _ _ _ _ _ hp hc) true

/-- C80. For `decrypt` the same, but the check for a pad character with PKCS5 is made only when PKCS5 is an argument of the call
(and only on a non-empty plaintext): with an object whose padding mode is PKCS5 the pad character is silently ignored. -/
theorem C80_decrypt (d : Des) (c : List Nat) (pad padmode : Option Nat) :
    (pad.isSome = true ∧ padmode = some 2 → ∀ m x, d.crypt c false = .ok (m ++ [x]) → d.decrypt c pad padmode = .error .valueError) ∧
    (¬ (pad.isSome = true ∧ padmode = some 2) → d.decrypt c pad padmode = (withPadding d pad padmode).decrypt c none none) := by
  constructor
  · intro h m x hd
    unfold Des.decrypt
    rw [hd]
    simp only
    unfold Base.unpadData
    rw [List.getLast?_concat]
    simp only
    rw [if_pos (show pad.isSome = true ∧ padmode = some PAD_PKCS5 from h)]
  · intro h
    have hc : (withPadding d pad padmode).crypt c false = d.crypt c false := by
      unfold withPadding
      by_cases h8 : c.length % 8 = 0
      · exact crypt_whole _ d.base d.Kn rfl rfl c h8 false
      · rw [crypt_short _ c h8, crypt_short _ c h8]
    unfold Des.decrypt
    rw [hc]
    cases d.crypt c false with
    | error e => rfl
    | ok r =>
      simp only
      unfold Base.unpadData withPadding
      cases r.getLast? with
      | none => rfl
      | some v =>
        simp only [Option.getD_none]
        rw [if_neg (show ¬ (pad.isSome = true ∧ padmode = some PAD_PKCS5) from h), if_neg (show ¬ ((none : Option Nat).isSome = true ∧ (none : Option Nat) = some PAD_PKCS5) by simp)]
        simp only [orElse_if]
        rfl

/-- C80, the difference between the two: on an object with PKCS5, `encrypt(m, pad=c)` is refused and `decrypt(m, pad=c)` is not. -/
theorem C80_asymmetry (key iv : List Nat) (mode : Nat) (hmode : mode = 0 ∨ mode = 1) (hk : key.length = 8) (hiv : IsBlock iv) (ch : Nat)
    (m : List Nat) (hx : ∀ x ∈ m, x < 256) :
    ∃ d c, Des.new key mode iv none 2 = .ok d ∧ d.encrypt m (some ch) none = .error .valueError ∧ d.encrypt m none none = .ok c ∧
      d.decrypt c (some ch) none = .ok m := by
  obtain ⟨d, c, h1, h2, _, _, h5⟩ := C60_roundtrip key iv mode hmode hk hiv m hx
  have hd := h1
  rw [(C59_constructor key mode iv none 2).1 ⟨hk, .inr hiv.1, by simp⟩] at hd
  injection hd with hd
  subst hd
  refine ⟨_, c, h1, (C80_encrypt _ m (some ch) none (.inr rfl)).1 ⟨rfl, rfl⟩, h2, ?_⟩
  rw [(C80_decrypt _ c (some ch) none).2 (by simp), ← h5]
  have hc : ∀ b b' : Base, b.mode = b'.mode → b.iv = b'.iv → ∀ c : List Nat, (Des.mk b (createSubKeys key)).crypt c false = (Des.mk b' (createSubKeys key)).crypt c false := by
    intro b b' e1 e2 c
    by_cases h8 : c.length % 8 = 0
    · exact crypt_whole b b' _ e1 e2 c h8 false
    · rw [crypt_short _ c h8, crypt_short _ c h8]
  show (Des.mk ⟨mode, iv, some ch, 2⟩ (createSubKeys key)).decrypt c none none = _
  unfold Des.decrypt
  rw [hc ⟨mode, iv, some ch, 2⟩ ⟨mode, iv, none, 2⟩ rfl rfl]
  cases (Des.mk ⟨mode, iv, none, 2⟩ (createSubKeys key)).crypt c false with
  | error e => rfl
  | ok r =>
    simp only
    unfold Base.unpadData
    cases r.getLast? <;> rfl

/-! ### C79: triple DES -/

/-- The settings of a triple DES object, as a user would write them down. -/
structure Settings where
  key : List Nat
  mode : Nat
  iv : List Nat
  pad : Option Nat
  padmode : Nat

/-- How a call changes them: `setKey` accepts 16 and 24 bytes, refuses while a pad character is set together with PKCS5, and (even
then) fills a missing IV in CBC mode with the beginning of the key. -/
def Settings.after (s : Settings) : PyDes.Call → Settings
  | .setKey k =>
    if k.length = 16 ∨ k.length = 24 then
      ⟨if s.pad.isSome = true ∧ s.padmode = 2 then s.key else k, s.mode, if s.mode = 1 ∧ s.iv = [] then k.take 8 else s.iv, s.pad, s.padmode⟩
    else s
  | .setMode m => ⟨s.key, m, s.iv, s.pad, s.padmode⟩
  | .setPadding p => ⟨s.key, s.mode, s.iv, p, s.padmode⟩
  | .setPadMode m => ⟨s.key, s.mode, s.iv, s.pad, m⟩
  | .setIV v => if v.length = 8 then ⟨s.key, s.mode, v, s.pad, s.padmode⟩ else s
  | .encrypt _ _ _ => s
  | .decrypt _ _ _ => s

/-- What the object has to do with the settings. -/
structure Has (o : PTriple) (s : Settings) : Prop where
  key : o.key = s.key
  klen : s.key.length = 16 ∨ s.key.length = 24
  ivlen : s.iv = [] ∨ s.iv.length = 8
  like : Like o.t ⟨s.mode, s.iv, s.pad, s.padmode⟩ (s.key.take 8) ((s.key.drop 8).take 8) (third s.key)

theorem sameButIVs_like {t t' : Triple} {b : Base} {k1 k2 k3 : List Nat} (h : Like t b k1 k2 k3) (e : t.SameButIVs t') : Like t' b k1 k2 k3 := by
  obtain ⟨v1, v2, v3, rfl⟩ := e
  exact ⟨h.base, h.kn1, h.kn2, h.kn3, h.m1, h.m2, h.m3⟩

theorem ofBase_eq (b : Base) (key : List Nat) (hk : key.length = 16 ∨ key.length = 24) (hiv : b.iv = [] ∨ b.iv.length = 8) :
    (¬ (b.padding.isSome = true ∧ b.padmode = 2) → ∃ t, Triple.ofBase b key = .ok t ∧ Like t (b.defaultIV key) (key.take 8) ((key.drop 8).take 8) (third key)) ∧
    (b.padding.isSome = true ∧ b.padmode = 2 → Triple.ofBase b key = .error .valueError) := by
  have hd : (b.defaultIV key).iv = [] ∨ (b.defaultIV key).iv.length = 8 := by
    unfold Base.defaultIV
    split
    · right; simp; omega
    · exact hiv
  have hc : ¬ ((b.defaultIV key).mode = CBC ∧ (b.defaultIV key).iv.length ≠ 8) := by
    unfold Base.defaultIV
    split
    · intro h; apply h.2; simp; omega
    · rename_i hn
      intro h
      rcases hiv with hi | hi
      · exact hn ⟨h.1, hi⟩
      · exact h.2 hi
  have hpad : (b.defaultIV key).padding = b.padding ∧ (b.defaultIV key).padmode = b.padmode := by
    unfold Base.defaultIV
    split <;> exact ⟨rfl, rfl⟩
  have h0 : Triple.ofBase b key = (do
      let k1 ← Des.new (key.take 8) (b.defaultIV key).mode (b.defaultIV key).iv (b.defaultIV key).padding (b.defaultIV key).padmode
      let k2 ← Des.new ((key.drop 8).take 8) (b.defaultIV key).mode (b.defaultIV key).iv (b.defaultIV key).padding (b.defaultIV key).padmode
      let k3 ← if key.length = 16 then pure k1
               else Des.new (key.drop 16) (b.defaultIV key).mode (b.defaultIV key).iv (b.defaultIV key).padding (b.defaultIV key).padmode
      return ⟨b.defaultIV key, k1, k2, k3⟩) := by
    unfold Triple.ofBase
    rw [if_neg (show ¬ (key.length ≠ 24 ∧ key.length ≠ 16) by omega)]
    exact if_neg hc
  have l1 : (key.take 8).length = 8 := by simp; omega
  have l2 : ((key.drop 8).take 8).length = 8 := by simp; omega
  constructor
  · intro hp
    have hp' : ¬ ((b.defaultIV key).padding.isSome = true ∧ (b.defaultIV key).padmode = 2) := by rw [hpad.1, hpad.2]; exact hp
    have n1 := (C59_constructor (key.take 8) (b.defaultIV key).mode (b.defaultIV key).iv (b.defaultIV key).padding (b.defaultIV key).padmode).1 ⟨l1, hd, hp'⟩
    have n2 := (C59_constructor ((key.drop 8).take 8) (b.defaultIV key).mode (b.defaultIV key).iv (b.defaultIV key).padding (b.defaultIV key).padmode).1 ⟨l2, hd, hp'⟩
    rw [h0, n1, n2]
    simp only [bind, Except.bind, pure, Except.pure]
    by_cases h16 : key.length = 16
    · rw [if_pos h16]
      refine ⟨_, rfl, rfl, rfl, rfl, ?_, rfl, rfl, rfl⟩
      unfold third
      rw [if_pos h16]
    · have l3 : (key.drop 16).length = 8 := by simp; omega
      have n3 := (C59_constructor (key.drop 16) (b.defaultIV key).mode (b.defaultIV key).iv (b.defaultIV key).padding (b.defaultIV key).padmode).1 ⟨l3, hd, hp'⟩
      rw [if_neg h16, n3]
      refine ⟨_, rfl, rfl, rfl, rfl, ?_, rfl, rfl, rfl⟩
      unfold third
      rw [if_neg h16]
  · intro hp
    have n1 := (C59_constructor (key.take 8) (b.defaultIV key).mode (b.defaultIV key).iv (b.defaultIV key).padding (b.defaultIV key).padmode).2
      (fun h => h.2.2 (by rw [hpad.1, hpad.2]; exact hp))
    rw [h0, n1]
    rfl

theorem has_new (key : List Nat) (mode : Nat) (iv : List Nat) (pad : Option Nat) (padmode : Nat) (o : PTriple)
    (h : PTriple.new key mode iv pad padmode = .ok o) : Has o ⟨key, mode, if mode = 1 ∧ iv = [] then key.take 8 else iv, pad, padmode⟩ := by
  unfold PTriple.new Triple.new at h
  cases hb : Base.new mode iv pad padmode with
  | error e => rw [hb] at h; cases h
  | ok b =>
    rw [hb] at h
    simp only at h
    have hbe : b = ⟨mode, iv, pad, padmode⟩ ∧ (iv = [] ∨ iv.length = 8) ∧ ¬ (pad.isSome = true ∧ padmode = 2) := by
      unfold Base.new at hb
      split at hb
      · cases hb
      · rename_i hp
        split at hb
        · cases hb
        · rename_i hi
          injection hb with hb
          refine ⟨hb.symm, ?_, hp⟩
          by_cases he : iv = []
          · exact .inl he
          · right
            by_cases hl : iv.length = 8
            · exact hl
            · exact absurd ⟨he, hl⟩ hi
    obtain ⟨rfl, hi, hp⟩ := hbe
    have hk : key.length = 16 ∨ key.length = 24 := by
      by_cases hk : key.length = 16 ∨ key.length = 24
      · exact hk
      · have : Triple.ofBase ⟨mode, iv, pad, padmode⟩ key = .error .valueError := by
          unfold Triple.ofBase
          rw [if_pos (by omega)]
        rw [this] at h; cases h
    obtain ⟨t, ht, hl⟩ := (ofBase_eq ⟨mode, iv, pad, padmode⟩ key hk hi).1 hp
    rw [ht] at h
    injection h with h
    subst h
    refine ⟨rfl, hk, ?_, ?_⟩
    · show (if mode = 1 ∧ iv = [] then key.take 8 else iv) = [] ∨ (if mode = 1 ∧ iv = [] then key.take 8 else iv).length = 8
      split
      · right; simp; omega
      · exact hi
    · have : Base.defaultIV ⟨mode, iv, pad, padmode⟩ key = ⟨mode, if mode = 1 ∧ iv = [] then key.take 8 else iv, pad, padmode⟩ := by
        unfold Base.defaultIV CBC
        simp only
        split <;> rfl
      rw [this] at hl
      exact hl

theorem has_step (o o' : PTriple) (s : Settings) (c : PyDes.Call) (r : Except Err (List Nat)) (h : Has o s) (e : PTriple.Call o c r o') : Has o' (s.after c) := by
  have hb := h.like.base
  have hdef : ∀ k, Base.defaultIV o.t.base k = ⟨s.mode, if s.mode = 1 ∧ s.iv = [] then k.take 8 else s.iv, s.pad, s.padmode⟩ := by
    intro k
    rw [hb]
    unfold Base.defaultIV CBC
    simp only
    split <;> rfl
  have hivl : ∀ k : List Nat, k.length = 16 ∨ k.length = 24 →
      (if s.mode = 1 ∧ s.iv = [] then k.take 8 else s.iv) = [] ∨ (if s.mode = 1 ∧ s.iv = [] then k.take 8 else s.iv).length = 8 := by
    intro k hk
    split
    · right; simp; omega
    · exact h.ivlen
  have hobi : o.t.base.iv = [] ∨ o.t.base.iv.length = 8 := by rw [hb]; exact h.ivlen
  cases e with
  | @setKey k _ hk =>
    unfold PTriple.setKey at hk
    by_cases hl : k.length = 16 ∨ k.length = 24
    · rw [if_neg (by omega)] at hk
      by_cases hp : s.pad.isSome = true ∧ s.padmode = 2
      · rw [(ofBase_eq o.t.base k hl hobi).2 (by rw [hb]; exact hp)] at hk
        injection hk with hk _; cases hk
      · obtain ⟨t, ht, hlike⟩ := (ofBase_eq o.t.base k hl hobi).1 (by rw [hb]; exact hp)
        rw [ht] at hk
        injection hk with _ hk
        subst hk
        rw [hdef] at hlike
        simp only [Settings.after]
        rw [if_pos hl, if_neg hp]
        exact ⟨rfl, hl, hivl k hl, hlike⟩
    · rw [if_pos (by omega)] at hk
      injection hk with hk _; cases hk
  | @setKeyFails k _ _ hk =>
    unfold PTriple.setKey at hk
    by_cases hl : k.length = 16 ∨ k.length = 24
    · rw [if_neg (by omega)] at hk
      by_cases hp : s.pad.isSome = true ∧ s.padmode = 2
      · rw [(ofBase_eq o.t.base k hl hobi).2 (by rw [hb]; exact hp)] at hk
        injection hk with _ hk
        subst hk
        simp only [Settings.after]
        rw [if_pos hl, if_pos hp]
        have hm : ∀ x : Nat, x = o.t.base.mode → x = s.mode := by intro x hx; rw [hx, hb]
        exact ⟨h.key, h.klen, hivl k hl, ⟨hdef k, h.like.kn1, h.like.kn2, h.like.kn3, h.like.m1, h.like.m2, h.like.m3⟩⟩
      · obtain ⟨t, ht, _⟩ := (ofBase_eq o.t.base k hl hobi).1 (by rw [hb]; exact hp)
        rw [ht] at hk
        injection hk with hk _; cases hk
    · rw [if_pos (by omega)] at hk
      injection hk with _ hk
      subst hk
      simp only [Settings.after]
      rw [if_neg hl]
      exact h
  | setMode =>
    exact ⟨h.key, h.klen, h.ivlen, ⟨by simp only [Triple.setMode, Triple.setAll, hb, Settings.after], h.like.kn1, h.like.kn2, h.like.kn3, rfl, rfl, rfl⟩⟩
  | setPadding =>
    exact ⟨h.key, h.klen, h.ivlen, ⟨by simp only [Triple.setPadding, Triple.setAll, hb, Settings.after], h.like.kn1, h.like.kn2, h.like.kn3, h.like.m1, h.like.m2, h.like.m3⟩⟩
  | setPadMode =>
    exact ⟨h.key, h.klen, h.ivlen, ⟨by simp only [Triple.setPadMode, Triple.setAll, hb, Settings.after], h.like.kn1, h.like.kn2, h.like.kn3, h.like.m1, h.like.m2, h.like.m3⟩⟩
  | @setIV v t hv =>
    unfold Triple.setIV Base.setIV at hv
    by_cases hl : v.length = 8
    · rw [if_neg (by rintro (h' | h'); · rw [h'] at hl; simp at hl
                     · exact h' hl)] at hv
      simp only at hv
      rw [setIVs_ok _ v hl] at hv
      injection hv with hv
      subst hv
      simp only [Settings.after]
      rw [if_pos hl]
      exact ⟨h.key, h.klen, .inr hl, ⟨by simp only [withIVs, hb], h.like.kn1, h.like.kn2, h.like.kn3, h.like.m1, h.like.m2, h.like.m3⟩⟩
    · rw [if_pos (.inr hl)] at hv
      cases hv
  | @setIVFails v _ hv =>
    unfold Triple.setIV Base.setIV at hv
    by_cases hl : v.length = 8
    · rw [if_neg (by rintro (h' | h'); · rw [h'] at hl; simp at hl
                     · exact h' hl)] at hv
      simp only at hv
      rw [setIVs_ok _ v hl] at hv
      cases hv
    · simp only [Settings.after]
      rw [if_neg hl]
      exact h
  | encrypt he => exact ⟨h.key, h.klen, h.ivlen, encrypt_like h.like he⟩
  | encryptFails _ he => exact ⟨h.key, h.klen, h.ivlen, sameButIVs_like h.like he⟩
  | decrypt he => exact ⟨h.key, h.klen, h.ivlen, decrypt_like h.like he⟩
  | decryptFails _ he => exact ⟨h.key, h.klen, h.ivlen, sameButIVs_like h.like he⟩

theorem has_run (o0 o : PTriple) (s : Settings) (cs : List PyDes.Call) (h : Has o0 s) (e : PTriple.Run o0 cs o) : Has o (cs.foldl Settings.after s) := by
  induction e with
  | nil => exact h
  | snoc _ hc ih =>
    rw [List.foldl_append]
    exact has_step _ _ _ _ _ ih hc

theorem padData_bytes (b : Base) (m m' : List Nat) (pad padmode : Option Nat) (hpc : ∀ c, pad = some c → c < 256)
    (hbc : ∀ c, b.padding = some c → c < 256) (hx : ∀ x ∈ m, x < 256) (h : b.padData m pad padmode = .ok m') : ∀ x ∈ m', x < 256 := by
  unfold Base.padData at h
  simp only at h
  split at h
  · cases h
  · split at h
    · split at h
      · injection h with h; subst h; exact hx
      · split at h
        · cases h
        · rename_i c hc
          injection h with h; subst h
          intro x hx'
          rcases List.mem_append.1 hx' with h1 | h1
          · exact hx x h1
          · rw [List.eq_of_mem_replicate h1]
            cases pad with
            | none => exact hbc c hc
            | some d => simp at hc; exact hpc c (by rw [hc])
    · split at h
      · injection h with h; subst h
        intro x hx'
        rcases List.mem_append.1 hx' with h1 | h1
        · exact hx x h1
        · rw [List.eq_of_mem_replicate h1]; omega
      · injection h with h; subst h; exact hx

theorem like_decrypt_cbc (t : Triple) (b : Base) (k1 k2 k3 : List Nat) (h : Like t b k1 k2 k3) (bs : List (List Nat)) (hb : ∀ x ∈ bs, IsBlock x)
    (pad padmode : Option Nat) (hc : b.mode = CBC) (hiv : IsBlock b.iv) :
    (t.decrypt bs.flatten pad padmode).map Prod.fst = b.unpadData (cbcDecrypt (decipher3 k1 k2 k3) b.iv bs).flatten pad padmode := by
  obtain ⟨t', ht'⟩ := decLoop_eq b hc k1 k2 k3 bs hb t h b.iv hiv
  have hl : Like t' b k1 k2 k3 := decLoop_like b k1 k2 k3 bs (withIVs t b.iv) ⟨h.base, h.kn1, h.kn2, h.kn3, h.m1, h.m2, h.m3⟩ _ _ ht'
  unfold Triple.decrypt
  simp only [bind, Except.bind, pure, Except.pure, h.base]
  rw [if_pos hc, setIVs_ok t b.iv hiv.1]
  simp only
  rw [blocks_flatten bs (fun b h => (hb b h).1), ht']
  simp only
  rw [hl.base]
  cases b.unpadData (cbcDecrypt (decipher3 k1 k2 k3) b.iv bs).flatten pad padmode <;> rfl

theorem like_decrypt_ecb (t : Triple) (b : Base) (k1 k2 k3 : List Nat) (h : Like t b k1 k2 k3) (bs : List (List Nat)) (hb : ∀ x ∈ bs, IsBlock x)
    (pad padmode : Option Nat) (hc : b.mode ≠ CBC) :
    (t.decrypt bs.flatten pad padmode).map Prod.fst = b.unpadData (ecb (decipher3 k1 k2 k3) bs).flatten pad padmode := by
  cases hu : b.unpadData (ecb (decipher3 k1 k2 k3) bs).flatten pad padmode with
  | ok r =>
    obtain ⟨t', ht'⟩ := (like_decrypt t b k1 k2 k3 h bs hb pad padmode).1 hc r hu
    rw [ht']; rfl
  | error e =>
    obtain ⟨t', ht'⟩ := (like_decrypt ⟨⟨b.mode, b.iv, none, 1⟩, t.key1, t.key2, t.key3⟩ ⟨b.mode, b.iv, none, 1⟩ k1 k2 k3 ⟨rfl, h.kn1, h.kn2, h.kn3, h.m1, h.m2, h.m3⟩
      bs hb none none).1 hc _ (unpadData_none _ rfl rfl _)
    unfold Triple.decrypt at ht' ⊢
    simp only [bind, Except.bind, pure, Except.pure, h.base] at ht' ⊢
    rw [if_neg hc] at ht' ⊢
    split at ht'
    · cases ht'
    · rename_i v1 _
      split at ht'
      · cases ht'
      · rename_i v2 _
        split at ht'
        · cases ht'
        · rename_i v3 _
          rw [unpadData_none _ rfl rfl] at ht'
          simp only at ht'
          injection ht' with ht'
          injection ht' with ht' _
          rw [ht', hu]
          rfl

/-- Objects alike answer alike (padding mode NORMAL or PKCS5 in effect, bytes as data). -/
theorem like_same (t t' : Triple) (b : Base) (k1 k2 k3 : List Nat) (h : Like t b k1 k2 k3) (h' : Like t' b k1 k2 k3)
    (hiv : b.mode = 1 → IsBlock b.iv) (m : List Nat) (hx : ∀ x ∈ m, x < 256) (pad padmode : Option Nat) (hpc : ∀ c, pad = some c → c < 256)
    (hbc : ∀ c, b.padding = some c → c < 256) (hp : padmode.getD b.padmode = 1 ∨ padmode.getD b.padmode = 2) :
    (t.encrypt m pad padmode).map Prod.fst = (t'.encrypt m pad padmode).map Prod.fst ∧
    (t.decrypt m pad padmode).map Prod.fst = (t'.decrypt m pad padmode).map Prod.fst := by
  constructor
  · cases hpd : b.padData m pad padmode with
    | error e =>
      have e1 : ∀ t : Triple, t.base = b → t.encrypt m pad padmode = .error e := by
        intro t ht
        unfold Triple.encrypt
        simp only [bind, Except.bind, ht, hpd]
      rw [e1 t h.base, e1 t' h'.base]
    | ok m' =>
      have h8 := padData_length b m m' pad padmode hp hpd
      have hx' : ∀ x ∈ m', x < 256 := padData_bytes b m m' pad padmode hpc hbc hx hpd
      obtain ⟨bs, rfl, hb⟩ := exists_blocks m' h8 hx'
      by_cases hc : b.mode = CBC
      · obtain ⟨a, ha⟩ := (like_encrypt t b k1 k2 k3 h bs hb m pad padmode hpd).2 hc (hiv hc)
        obtain ⟨a', ha'⟩ := (like_encrypt t' b k1 k2 k3 h' bs hb m pad padmode hpd).2 hc (hiv hc)
        rw [ha, ha']; rfl
      · obtain ⟨a, ha⟩ := (like_encrypt t b k1 k2 k3 h bs hb m pad padmode hpd).1 hc
        obtain ⟨a', ha'⟩ := (like_encrypt t' b k1 k2 k3 h' bs hb m pad padmode hpd).1 hc
        rw [ha, ha']; rfl
  · by_cases h8 : m.length % 8 = 0
    · obtain ⟨bs, rfl, hb⟩ := exists_blocks m h8 hx
      by_cases hc : b.mode = CBC
      · rw [like_decrypt_cbc t b k1 k2 k3 h bs hb pad padmode hc (hiv hc), like_decrypt_cbc t' b k1 k2 k3 h' bs hb pad padmode hc (hiv hc)]
      · rw [like_decrypt_ecb t b k1 k2 k3 h bs hb pad padmode hc, like_decrypt_ecb t' b k1 k2 k3 h' bs hb pad padmode hc]
    · have e1 : ∀ t : Triple, Like t b k1 k2 k3 → t.decrypt m pad padmode = .error .valueError := by
        intro t ht
        by_cases hc : b.mode = CBC
        · exact like_decrypt_short t b k1 k2 k3 ht (hiv hc) m h8 hx pad padmode
        · unfold Triple.decrypt
          simp only [bind, Except.bind, ht.base]
          rw [if_neg hc, crypt_short _ m h8]
      rw [e1 t h, e1 t' h']

/-- C79. A triple DES object after any history of calls - setters with accepted or refused values, encryptions and decryptions that
succeed or fail - is determined by the settings in force: getKey, and the result or exception of every `encrypt` and `decrypt`, are
those of an object freshly constructed from these settings. -/
theorem C79_triple (key : List Nat) (mode : Nat) (iv : List Nat) (pad : Option Nat) (padmode : Nat) (o0 o : PTriple)
    (h0 : PTriple.new key mode iv pad padmode = .ok o0) (cs : List PyDes.Call) (hr : PTriple.Run o0 cs o) (s : Settings)
    (hs : s = cs.foldl Settings.after ⟨key, mode, if mode = 1 ∧ iv = [] then key.take 8 else iv, pad, padmode⟩)
    (fresh : PTriple) (hf : PTriple.new s.key s.mode s.iv s.pad s.padmode = .ok fresh) (hiv : s.mode = 1 → IsBlock s.iv)
    (hpc : ∀ c, s.pad = some c → c < 256) (m : List Nat) (hx : ∀ x ∈ m, x < 256) (apad apadmode : Option Nat) (hac : ∀ c, apad = some c → c < 256)
    (hap : apadmode.getD s.padmode = 1 ∨ apadmode.getD s.padmode = 2) :
    o.key = s.key ∧
    (o.t.encrypt m apad apadmode).map Prod.fst = (fresh.t.encrypt m apad apadmode).map Prod.fst ∧
    (o.t.decrypt m apad apadmode).map Prod.fst = (fresh.t.decrypt m apad apadmode).map Prod.fst := by
  have h1 := has_run o0 o _ cs (has_new key mode iv pad padmode o0 h0) hr
  rw [← hs] at h1
  have h2 := has_new s.key s.mode s.iv s.pad s.padmode fresh hf
  refine ⟨h1.key, ?_⟩
  have hfi : (if s.mode = 1 ∧ s.iv = [] then s.key.take 8 else s.iv) = s.iv := by
    by_cases hm : s.mode = 1
    · rw [if_neg (fun h => iv_block_ne _ (hiv hm) h.2)]
    · rw [if_neg (fun h => hm h.1)]
  have h2l := h2.like
  simp only [hfi] at h2l
  exact like_same o.t fresh.t _ _ _ _ h1.like h2l hiv m hx apad apadmode hac hpc hap

/-- C79. Switching an object made without an IV to CBC: `encrypt` and `decrypt` raise ValueError (the constructor would have taken
the IV from the key) until setIV or setKey is called. -/
theorem C79_cbc_without_iv (key : List Nat) (hk : key.length = 16 ∨ key.length = 24) (o0 o : PTriple) (h0 : PTriple.new key 0 [] none 1 = .ok o0)
    (hr : PTriple.Run o0 [.setMode 1] o) (m : List Nat) (hm : m.length % 8 = 0) :
    o.t.encrypt m none none = .error .valueError ∧ o.t.decrypt m none none = .error .valueError := by
  have h1 := has_run o0 o _ _ (has_new key 0 [] none 1 o0 h0) hr
  simp only [List.foldl, Settings.after] at h1
  have hb : o.t.base = ⟨1, [], none, 1⟩ := by
    rw [h1.like.base]
    simp
  constructor
  · unfold Triple.encrypt
    simp only [bind, Except.bind, hb]
    rw [padData_none ⟨1, [], none, 1⟩ rfl m hm]
    simp only
    rw [if_pos (show 1 = CBC from rfl), setIVs_err _ _ (by simp)]
  · unfold Triple.decrypt
    simp only [bind, Except.bind, hb]
    rw [if_pos (show 1 = CBC from rfl), setIVs_err _ _ (by simp)]

/-- C79. In CBC mode without an explicit IV, changing the key does not change the IV taken from the first key, so the object does not
become the one that the constructor makes from the new key. -/
theorem C79_stale_iv (key key' : List Nat) (hk : key.length = 16 ∨ key.length = 24) (hk' : key'.length = 16 ∨ key'.length = 24) (o0 o fresh : PTriple)
    (h0 : PTriple.new key 1 [] none 1 = .ok o0) (hr : PTriple.Run o0 [.setKey key'] o) (hf : PTriple.new key' 1 [] none 1 = .ok fresh) :
    o.key = key' ∧ o.t.base.iv = key.take 8 ∧ fresh.t.base.iv = key'.take 8 := by
  have h1 := has_run o0 o _ _ (has_new key 1 [] none 1 o0 h0) hr
  have h2 := has_new key' 1 [] none 1 fresh hf
  have hne : key.take 8 ≠ [] := by
    intro h
    have := congrArg List.length h
    rw [List.length_take, List.length_nil] at this
    omega
  simp only [List.foldl, Settings.after] at h1
  rw [if_pos hk'] at h1
  refine ⟨by rw [h1.key]; simp, ?_, ?_⟩
  · rw [h1.like.base]
    simp [hne]
  · rw [h2.like.base]
    simp

/-- C79. The getters after any history of calls: on a `des` object each reports what was last accepted, the key even when it was refused
for being too short; on a `triple_des` object they report the settings written down by `Settings.after`. -/
theorem C79_getters (key : List Nat) (mode : Nat) (iv : List Nat) (pad : Option Nat) (padmode : Nat) (cs : List PyDes.Call) :
    (∀ o, PDes.new key mode iv pad padmode = .ok o →
      (o.run cs).getKey = latest setsKey key cs ∧ (o.run cs).getMode = latest setsMode mode cs ∧ (o.run cs).getIV = latest setsIV iv cs ∧
      (o.run cs).getPadding = latest setsPadding pad cs ∧ (o.run cs).getPadMode = latest setsPadMode padmode cs) ∧
    (∀ o0 o, PTriple.new key mode iv pad padmode = .ok o0 → PTriple.Run o0 cs o → ∀ s,
      s = cs.foldl Settings.after ⟨key, mode, if mode = 1 ∧ iv = [] then key.take 8 else iv, pad, padmode⟩ →
      o.getKey = s.key ∧ o.getMode = s.mode ∧ o.getIV = s.iv ∧ o.getPadding = s.pad ∧ o.getPadMode = s.padmode) := by
  constructor
  · intro o h
    have := C79_des key mode iv pad padmode o h cs
    exact ⟨this.1, this.2.1, this.2.2.1, this.2.2.2.1, this.2.2.2.2.1⟩
  · intro o0 o h0 hr s hs
    have h1 := has_run o0 o _ cs (has_new key mode iv pad padmode o0 h0) hr
    rw [← hs] at h1
    unfold PTriple.getKey PTriple.getMode PTriple.getIV PTriple.getPadding PTriple.getPadMode
    rw [h1.like.base]
    exact ⟨h1.key, rfl, rfl, rfl, rfl⟩

/-- C79. On a `triple_des` object mode, pad character and padding mode are those last set, whatever else was called. -/
theorem C79_triple_getters (key : List Nat) (mode : Nat) (iv : List Nat) (pad : Option Nat) (padmode : Nat) (cs : List PyDes.Call) (o0 o : PTriple)
    (h0 : PTriple.new key mode iv pad padmode = .ok o0) (hr : PTriple.Run o0 cs o) :
    o.getMode = latest setsMode mode cs ∧ o.getPadding = latest setsPadding pad cs ∧ o.getPadMode = latest setsPadMode padmode cs := by
  obtain ⟨_, h2, _, h4, h5⟩ := (C79_getters key mode iv pad padmode cs).2 o0 o h0 hr _ rfl
  rw [h2, h4, h5]
  have : ∀ (cs : List PyDes.Call) (s : Settings), (cs.foldl Settings.after s).mode = latest setsMode s.mode cs ∧
      (cs.foldl Settings.after s).pad = latest setsPadding s.pad cs ∧ (cs.foldl Settings.after s).padmode = latest setsPadMode s.padmode cs := by
    intro cs
    induction cs with
    | nil => intro s; exact ⟨rfl, rfl, rfl⟩
    | cons c cs ih =>
      intro s
      simp only [List.foldl_cons]
      obtain ⟨e1, e2, e3⟩ := ih (s.after c)
      rw [e1, e2, e3, latest_cons, latest_cons, latest_cons]
      cases c with
      | setKey k =>
        simp only [Settings.after]
        split <;> exact ⟨rfl, rfl, rfl⟩
      | setIV k =>
        simp only [Settings.after]
        split <;> exact ⟨rfl, rfl, rfl⟩
      | _ => exact ⟨rfl, rfl, rfl⟩
  exact this cs _

/-! Such histories exist: a key change, a refused IV and a change of mode; and the hypotheses of C79_triple are met after it. -/
example : ∃ o0 o fresh, PTriple.new (List.replicate 16 1) 0 [1, 2, 3, 4, 5, 6, 7, 8] none 2 = .ok o0 ∧
    PTriple.Run o0 [.setKey (List.replicate 24 5), .setIV [1, 2], .setMode 1] o ∧
    PTriple.new (List.replicate 24 5) 1 [1, 2, 3, 4, 5, 6, 7, 8] none 2 = .ok fresh ∧
    (o.t.encrypt [1, 2, 3] none none).map Prod.fst = (fresh.t.encrypt [1, 2, 3] none none).map Prod.fst := by
  obtain ⟨t0, h0⟩ := (C61_constructor (List.replicate 16 1) 0 [1, 2, 3, 4, 5, 6, 7, 8] 2).2.2 (.inl rfl) rfl
  obtain ⟨tf, hf⟩ := (C61_constructor (List.replicate 24 5) 1 [1, 2, 3, 4, 5, 6, 7, 8] 2).2.2 (.inr rfl) rfl
  have h0' : PTriple.new (List.replicate 16 1) 0 [1, 2, 3, 4, 5, 6, 7, 8] none 2 = .ok ⟨List.replicate 16 1, t0⟩ := by unfold PTriple.new; rw [h0]
  have hf' : PTriple.new (List.replicate 24 5) 1 [1, 2, 3, 4, 5, 6, 7, 8] none 2 = .ok ⟨List.replicate 24 5, tf⟩ := by unfold PTriple.new; rw [hf]
  have hh := has_new _ _ _ _ _ _ h0'
  have hb : t0.base = ⟨0, [1, 2, 3, 4, 5, 6, 7, 8], none, 2⟩ := hh.like.base
  obtain ⟨t1, h1, _⟩ := (ofBase_eq t0.base (List.replicate 24 5) (.inr rfl) (by rw [hb]; exact .inr rfl)).1 (by rw [hb]; simp)
  have r1 : PTriple.Run ⟨List.replicate 16 1, t0⟩ [.setKey (List.replicate 24 5)] ⟨List.replicate 24 5, t1⟩ :=
    .snoc (cs := []) .nil (.setKey (by unfold PTriple.setKey; rw [if_neg (by simp), h1]))
  have r2 : PTriple.Run ⟨List.replicate 16 1, t0⟩ [.setKey (List.replicate 24 5), .setIV [1, 2]] ⟨List.replicate 24 5, t1⟩ :=
    .snoc (cs := [.setKey (List.replicate 24 5)]) r1 (.setIVFails (by unfold Triple.setIV Base.setIV; rw [if_pos (by simp)]))
  have r3 : PTriple.Run ⟨List.replicate 16 1, t0⟩ [.setKey (List.replicate 24 5), .setIV [1, 2], .setMode 1] ⟨List.replicate 24 5, t1.setMode 1⟩ :=
    .snoc (cs := [.setKey (List.replicate 24 5), .setIV [1, 2]]) r2 .setMode
  exact ⟨_, _, _, h0', r3, hf', (C79_triple _ _ _ _ _ _ _ h0' _ r3 ⟨List.replicate 24 5, 1, [1, 2, 3, 4, 5, 6, 7, 8], none, 2⟩ rfl _ hf' (fun _ => ⟨rfl, by decide⟩)
    (fun c hc => by cases hc) [1, 2, 3] (by decide) none none (fun c hc => by cases hc) (.inr rfl)).2.1⟩

example : ((PDes.mk [] ⟨⟨0, [], none, 1⟩, createSubKeys [1, 2, 3, 4, 5, 6, 7, 8]⟩).run [.setKey [9], .setMode 1, .setIV [1, 2, 3, 4, 5, 6, 7, 8], .setIV []]) =
    ⟨[9], ⟨⟨1, [1, 2, 3, 4, 5, 6, 7, 8], none, 1⟩, createSubKeys [1, 2, 3, 4, 5, 6, 7, 8]⟩⟩ := run_eq _ _ _ _ _ _ _

end Verif.Props
