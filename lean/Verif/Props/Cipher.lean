import Verif.Props.Keys
import Verif.Model.Cipher
/-! C53 (ciphering), C55, C56: cipher objects. -/
namespace Verif.Props
open Verif.Py Verif.Model Verif.Spec

/-! ### C53, seen through a cipher -/

/-- C53. What an RSA cipher computes depends on the key object only through its size, its being public or private, and the
library key it holds: so (with `C53_sticky`) setting another modulus or exponent afterwards does not change any result. -/
theorem C53_cipher (heap heap' : KeyHeap) (ops : RSAOps) (ls : Bool) (rnd : List Nat) (c : RSACipher) (r : Nat) (hc : c.theKey = some r)
    (k k' : RSAKey) (hk : heap r = .rsa k) (hk' : heap' r = .rsa k') (hp : k.isPublic = k'.isPublic) (hs : k.size = k'.size) (ht : k.theKey = k'.theKey)
    (inB outB : List Int) (io il oo : Int) :
    c.doFinal heap ops ls rnd inB io il outB oo = c.doFinal heap' ops ls rnd inB io il outB oo := by
  simp only [RSACipher.doFinal, hc, Option.map_some, hk, hk', hp, hs, ht]

/-- C53. So for every later history of setter and `clearKey` calls on a public key that has been used, ciphering gives the
same results as before. -/
theorem C53_cipher_history (heap : KeyHeap) (ops : RSAOps) (ls : Bool) (rnd : List Nat) (c : RSACipher) (r : Nat) (hc : c.theKey = some r)
    (k : RSAKey) (hk : heap r = .rsa k) (hinv : k.initialized = (k.modulus.isSome && k.exponent.isSome)) (ht : k.theKey ≠ none)
    (later : List RSAKey.Op) (hl : later.any InstallsKey = false) (inB outB : List Int) (io il oo : Int) :
    c.doFinal (fun x => if x = r then .rsa (k.run true ls later) else heap x) ops ls rnd inB io il outB oo =
    c.doFinal heap ops ls rnd inB io il outB oo := by
  obtain ⟨_, h2, h3, _⟩ := rsa_run ls k later hinv
  exact C53_cipher _ heap ops ls rnd c r hc (k.run true ls later) k (by simp) hk h3 h2 (C53_sticky ls k later hl ht) inB outB io il oo

/-- C53. A private key set through its components is accepted by `init`, but every `doFinal` with it raises - ILLEGAL_VALUE or
AttributeError - so it can never be used. -/
theorem C53_private_unusable (heap : KeyHeap) (ops : RSAOps) (ls : Bool) (rnd : List Nat) (c : RSACipher) (r : Nat) (hc : c.theKey = some r)
    (hi : c.base.initialized = true) (size : Int) (hist : List RSAKey.Op) (hn : hist.any InstallsKey = false)
    (hk : heap r = .rsa ((RSAKey.new false size).run true ls hist)) (inB outB : List Int) (io il oo : Int) :
    c.doFinal heap ops ls rnd inB io il outB oo = none ∨ ∃ e, c.doFinal heap ops ls rnd inB io il outB oo = some (.error e, outB) := by
  have ht := C53_private_never ls size hist hn
  simp only [RSACipher.doFinal, hc, Option.map_some, hk, hi, ht]
  simp only [not_true_eq_false, if_false]
  split
  · exact .inr ⟨_, rfl⟩
  · split
    · exact .inl rfl
    · exact .inr ⟨_, rfl⟩
    · split
      · exact .inr ⟨_, rfl⟩
      · exact .inr ⟨_, rfl⟩

/-! ### C55 -/

/-- What a caller passes to `init` of an RSA cipher, with the state of the key objects at that moment. -/
structure InitCall where
  heap : KeyHeap
  key : KeyArg
  mode : Int

/-- The call names an initialised RSA key and a valid mode. -/
def InitCall.GoodRSA (a : InitCall) : Prop :=
  ∃ r k, a.key = .key r ∧ a.heap r = .rsa k ∧ k.initialized = true ∧ (a.mode = 1 ∨ a.mode = 2)

/-- The RSA cipher after a history of `init` calls. -/
def rsaInits (c : RSACipher) (l : List InitCall) : RSACipher := l.foldl (fun c a => (c.init a.heap a.key a.mode).2) c

/-- C55. Exact outcome of `init` on an RSA cipher. -/
theorem C55_rsa_init (c : RSACipher) (a : InitCall) :
    (a.GoodRSA → (c.init a.heap a.key a.mode).1 = .ok () ∧ (c.init a.heap a.key a.mode).2.base.mode = some a.mode ∧
      .key <$> (c.init a.heap a.key a.mode).2.theKey = some a.key ∧ (c.init a.heap a.key a.mode).2.base.initialized = true) ∧
    (a.key = .notKey → c.init a.heap a.key a.mode = (.error (.crypto 1), c)) ∧
    (∀ r, a.key = .key r → (a.heap r).isInitialized = false → c.init a.heap a.key a.mode = (.error (.crypto 2), c)) ∧
    (∀ r, a.key = .key r → (a.heap r).isInitialized = true → ¬ (a.mode = 1 ∨ a.mode = 2) → c.init a.heap a.key a.mode = (.error (.crypto 1), c)) ∧
    (∀ r d, a.key = .key r → a.heap r = .des d → d.initialized = true → (a.mode = 1 ∨ a.mode = 2) →
      c.init a.heap a.key a.mode = (.error (.crypto 1), { c with base := { c.base with mode := some a.mode } })) := by
  obtain ⟨heap, key, mode⟩ := a
  refine ⟨?_, ?_, ?_, ?_, ?_⟩
  · rintro ⟨r, k, h1, h2, h3, h4⟩
    simp only at h1 h2 h4
    subst h1
    have hi : (KeyObj.rsa k).isInitialized = true := h3
    have hm : mode = MODE_ENCRYPT ∨ mode = MODE_DECRYPT := by unfold MODE_ENCRYPT MODE_DECRYPT; omega
    simp [RSACipher.init, CipherBase.init, hi, hm, h2]
  · intro h
    simp only at h
    subst h
    rfl
  · intro r h1 h2
    simp only at h1 h2
    subst h1
    simp [RSACipher.init, CipherBase.init, h2, UNINITIALIZED_KEY]
  · intro r h1 h2 h3
    simp only at h1 h2 h3
    subst h1
    have hm : ¬ (mode = MODE_ENCRYPT ∨ mode = MODE_DECRYPT) := by unfold MODE_ENCRYPT MODE_DECRYPT; omega
    simp [RSACipher.init, CipherBase.init, h2, hm, ILLEGAL_VALUE]
  · intro r d h1 h2 h3 h4
    simp only at h1 h2 h4
    subst h1
    have hi : (KeyObj.des d).isInitialized = true := h3
    have hm : mode = MODE_ENCRYPT ∨ mode = MODE_DECRYPT := by unfold MODE_ENCRYPT MODE_DECRYPT; omega
    simp [RSACipher.init, CipherBase.init, hi, hm, h2, ILLEGAL_VALUE]

theorem goodRSA_cases (a : InitCall) : a.GoodRSA ∨ a.key = .notKey ∨ (∃ r, a.key = .key r ∧ (a.heap r).isInitialized = false) ∨
    (∃ r, a.key = .key r ∧ (a.heap r).isInitialized = true ∧ ¬ (a.mode = 1 ∨ a.mode = 2)) ∨
    (∃ r d, a.key = .key r ∧ a.heap r = .des d ∧ d.initialized = true ∧ (a.mode = 1 ∨ a.mode = 2)) := by
  obtain ⟨heap, key, mode⟩ := a
  cases key with
  | notKey => exact .inr (.inl rfl)
  | key r =>
    by_cases hi : (heap r).isInitialized = true
    · by_cases hm : mode = 1 ∨ mode = 2
      · cases hk : heap r with
        | rsa k => rw [hk] at hi; exact .inl ⟨r, k, rfl, hk, hi, hm⟩
        | des d => rw [hk] at hi; exact .inr (.inr (.inr (.inr ⟨r, d, rfl, hk, hi, hm⟩)))
      · exact .inr (.inr (.inr (.inl ⟨r, rfl, hi, hm⟩)))
    · exact .inr (.inr (.inl ⟨r, rfl, by simpa using hi⟩))

/-- C55. A failed `init` of an RSA cipher keeps key and initialisation; with an initialised DES key and a valid mode it has
nevertheless changed the mode, so later `doFinal` calls run in the new mode with the old key. -/
theorem C55_rsa_failed_init (c : RSACipher) (a : InitCall) (h : ¬ a.GoodRSA) :
    (∃ e, (c.init a.heap a.key a.mode).1 = .error e) ∧ (c.init a.heap a.key a.mode).2.theKey = c.theKey ∧
    (c.init a.heap a.key a.mode).2.base.initialized = c.base.initialized := by
  obtain ⟨_, h2, h3, h4, h5⟩ := C55_rsa_init c a
  rcases goodRSA_cases a with g | g | ⟨r, g1, g2⟩ | ⟨r, g1, g2, g3⟩ | ⟨r, d, g1, g2, g3, g4⟩
  · exact absurd g h
  · rw [h2 g]; exact ⟨⟨_, rfl⟩, rfl, rfl⟩
  · rw [h3 r g1 g2]; exact ⟨⟨_, rfl⟩, rfl, rfl⟩
  · rw [h4 r g1 g2 g3]; exact ⟨⟨_, rfl⟩, rfl, rfl⟩
  · rw [h5 r d g1 g2 g3 g4]; exact ⟨⟨_, rfl⟩, rfl, rfl⟩

/-- C55. After any history of `init` calls, an RSA cipher from `getInstance` is initialised exactly when one of them named an
initialised RSA key and a valid mode; otherwise `doFinal` and `update` raise INVALID_INIT and write nothing. -/
theorem C55_rsa_initialised_iff (alg : Int) (l : List InitCall) :
    ((rsaInits (RSACipher.new alg) l).base.initialized = true ↔ ∃ a ∈ l, a.GoodRSA) ∧
    ((¬ ∃ a ∈ l, a.GoodRSA) → (rsaInits (RSACipher.new alg) l).update = .error (.crypto 4) ∧
      ∀ heap ops ls rnd inB io il outB oo, (rsaInits (RSACipher.new alg) l).doFinal heap ops ls rnd inB io il outB oo = some (.error (.crypto 4), outB)) := by
  have key : ∀ c : RSACipher, (rsaInits c l).base.initialized = true ↔ c.base.initialized = true ∨ ∃ a ∈ l, a.GoodRSA := by
    induction l with
    | nil => intro c; simp [rsaInits]
    | cons a l ih =>
      intro c
      have e : rsaInits c (a :: l) = rsaInits (c.init a.heap a.key a.mode).2 l := rfl
      rw [e, ih]
      by_cases hg : a.GoodRSA
      · have := ((C55_rsa_init c a).1 hg).2.2.2
        simp [this, hg]
      · have := (C55_rsa_failed_init c a hg).2.2
        simp [this, hg]
  have h1 : (rsaInits (RSACipher.new alg) l).base.initialized = true ↔ ∃ a ∈ l, a.GoodRSA := by
    rw [key]; simp [RSACipher.new, CipherBase.new]
  refine ⟨h1, ?_⟩
  intro hn
  have hf : (rsaInits (RSACipher.new alg) l).base.initialized = false := by
    cases hb : (rsaInits (RSACipher.new alg) l).base.initialized with
    | false => rfl
    | true => exact absurd (h1.1 hb) hn
  constructor
  · simp [RSACipher.update, hf, INVALID_INIT]
  · intro heap ops ls rnd inB io il outB oo
    simp [RSACipher.doFinal, hf, INVALID_INIT]

/-- Arguments of `init` of a DES cipher. -/
structure DESInitCall where
  heap : KeyHeap
  key : KeyArg
  mode : Int
  iv : List Int
  off : Nat
  len : Int

/-- The call names an initialised DES key with as many bytes as its kind needs, a valid mode and an 8-byte IV that lies in
its array. -/
def DESInitCall.Good (a : DESInitCall) : Prop :=
  ∃ r k bytes, a.key = .key r ∧ a.heap r = .des k ∧ k.initialized = true ∧ k.key = some bytes ∧ (a.mode = 1 ∨ a.mode = 2) ∧
    a.len = 8 ∧ a.off + 8 ≤ a.iv.length ∧ (if k.size = 64 then bytes.length = 8 else bytes.length = 16 ∨ bytes.length = 24)

def desInits (c : DESCipher) (l : List DESInitCall) : DESCipher := l.foldl (fun c a => (c.init a.heap a.key a.mode a.iv a.off a.len).2) c

theorem desNew_eq (key : List Nat) (mode padmode : Nat) (iv : List Nat) (hiv : iv.length = 8) :
    (key.length = 8 → PyDes.Des.new key mode iv none padmode = .ok ⟨⟨mode, iv, none, padmode⟩, PyDes.createSubKeys key⟩) ∧
    (key.length ≠ 8 → PyDes.Des.new key mode iv none padmode = .error .valueError) := by
  constructor
  · intro h
    unfold PyDes.Des.new PyDes.Base.new
    rw [if_neg (by omega), if_neg (by simp), if_neg (by simp [hiv])]
  · intro h
    unfold PyDes.Des.new
    rw [if_pos h]

theorem tripleNew_eq (key : List Nat) (mode padmode : Nat) (iv : List Nat) (hiv : iv.length = 8) :
    (key.length = 16 ∨ key.length = 24 → PyDes.Triple.new key mode iv none padmode =
      .ok ⟨⟨mode, iv, none, padmode⟩, ⟨⟨mode, iv, none, padmode⟩, PyDes.createSubKeys (key.take 8)⟩,
        ⟨⟨mode, iv, none, padmode⟩, PyDes.createSubKeys ((key.drop 8).take 8)⟩,
        ⟨⟨mode, iv, none, padmode⟩, PyDes.createSubKeys (if key.length = 16 then key.take 8 else key.drop 16)⟩⟩) ∧
    (¬ (key.length = 16 ∨ key.length = 24) → PyDes.Triple.new key mode iv none padmode = .error .valueError) := by
  have hne : iv ≠ [] := by rintro rfl; simp at hiv
  have hb : PyDes.Base.new mode iv none padmode = .ok ⟨mode, iv, none, padmode⟩ := by
    unfold PyDes.Base.new
    rw [if_neg (by simp), if_neg (by simp [hiv])]
  constructor
  · intro h
    unfold PyDes.Triple.new
    rw [hb]
    simp only
    unfold PyDes.Triple.ofBase
    rw [if_neg (by omega)]
    rw [if_neg (show ¬ ((PyDes.Base.mk mode iv none padmode).mode = PyDes.CBC ∧ (PyDes.Base.mk mode iv none padmode).iv = []) from fun h => hne h.2)]
    rw [if_neg (show ¬ ((PyDes.Base.mk mode iv none padmode).mode = PyDes.CBC ∧ (PyDes.Base.mk mode iv none padmode).iv.length ≠ 8) from fun h => h.2 hiv)]
    simp only [bind, Except.bind, pure, Except.pure]
    rw [(desNew_eq (key.take 8) mode padmode iv hiv).1 (by simp; omega)]
    simp only
    rw [(desNew_eq ((key.drop 8).take 8) mode padmode iv hiv).1 (by simp; omega)]
    simp only
    by_cases h16 : key.length = 16
    · simp [h16]
    · simp only [if_neg h16]
      rw [(desNew_eq (key.drop 16) mode padmode iv hiv).1 (by simp; omega)]
  · intro h
    unfold PyDes.Triple.new
    rw [hb]
    simp only
    unfold PyDes.Triple.ofBase
    rw [if_pos (by omega)]

theorem iv_copy (iv : List Int) (off : Nat) :
    (off + 8 ≤ iv.length → Util.arrayCopy iv off (fresh 8 0) 0 8 = (.ok (), range iv off 8)) ∧
    (iv.length < off + 8 → ∃ l, Util.arrayCopy iv off (fresh 8 0) 0 8 = (.error .arrayIndexOutOfBounds, l)) := by
  have hf : (fresh (8 : Int) (0 : Int)).length = 8 := by rw [fresh_length]; rfl
  constructor
  · intro h
    have := arrayCopy_ok iv (fresh 8 0) off 0 8 h (by omega)
    rw [show ((0 : Nat) : Int) = 0 from rfl, show ((8 : Nat) : Int) = 8 from rfl] at this
    rw [this]
    congr 1
    have hr : ((iv.drop off).take 8).length = 8 := by simp; omega
    unfold splice range
    have hz : List.drop (0 + 8) (fresh (8 : Int) (0 : Int)) = [] := List.drop_eq_nil_of_le (by omega)
    rw [hr, hz]
    simp
  · intro h
    have := arrayCopy_eq iv (fresh 8 0) off 0 8
    rw [show ((0 : Nat) : Int) = 0 from rfl, show ((8 : Nat) : Int) = 8 from rfl] at this
    rw [this]
    simp only
    rw [if_neg (by omega)]
    exact ⟨_, rfl⟩

/-- C55. `init` of a DES cipher succeeds exactly on good arguments; a failed one keeps the previous pyDes object and the
initialisation (but may have changed the mode). -/
theorem C55_des_init (c : DESCipher) (a : DESInitCall) :
    (a.Good → (c.init a.heap a.key a.mode a.iv a.off a.len).1 = .ok () ∧ (c.init a.heap a.key a.mode a.iv a.off a.len).2.base.initialized = true ∧
      (c.init a.heap a.key a.mode a.iv a.off a.len).2.base.mode = some a.mode) ∧
    (¬ a.Good → (∃ e, (c.init a.heap a.key a.mode a.iv a.off a.len).1 = .error e) ∧
      (c.init a.heap a.key a.mode a.iv a.off a.len).2.cipher = c.cipher ∧
      (c.init a.heap a.key a.mode a.iv a.off a.len).2.base.initialized = c.base.initialized) := by
  obtain ⟨heap, key, mode, iv, off, len⟩ := a
  simp only
  cases key with
  | notKey =>
    constructor
    · rintro ⟨r, k, b, h, _⟩; cases h
    · intro _; exact ⟨⟨_, rfl⟩, rfl, rfl⟩
  | key r =>
    unfold DESCipher.init CipherBase.init
    simp only
    by_cases hi : (heap r).isInitialized = true
    · rw [if_neg (show ¬ ¬ (heap r).isInitialized = true from fun h => h hi)]
      by_cases hm : mode = MODE_ENCRYPT ∨ mode = MODE_DECRYPT
      · have hm' : mode = 1 ∨ mode = 2 := by unfold MODE_ENCRYPT MODE_DECRYPT at hm; omega
        rw [if_neg (show ¬ ¬ (mode = MODE_ENCRYPT ∨ mode = MODE_DECRYPT) from fun h => h hm)]
        simp only
        cases hk : heap r with
        | rsa k =>
          constructor
          · rintro ⟨r', k', b, h1, h2, _⟩
            simp only [KeyArg.key.injEq] at h1
            subst h1
            simp only [hk] at h2
            cases h2
          · intro _; exact ⟨⟨_, rfl⟩, rfl, rfl⟩
        | des k =>
          simp only
          rw [hk] at hi
          have hgood : DESInitCall.Good ⟨heap, .key r, mode, iv, off, len⟩ ↔
              ∃ bytes, k.key = some bytes ∧ len = 8 ∧ off + 8 ≤ iv.length ∧ (if k.size = 64 then bytes.length = 8 else bytes.length = 16 ∨ bytes.length = 24) := by
            constructor
            · rintro ⟨r', k', b, h1, h2, h3, h4, h5, h6, h7, h8⟩
              simp only [KeyArg.key.injEq] at h1
              subst h1
              simp only [hk, KeyObj.des.injEq] at h2
              subst h2
              exact ⟨b, h4, h6, h7, h8⟩
            · rintro ⟨b, h4, h6, h7, h8⟩
              exact ⟨r, k, b, rfl, hk, hi, h4, hm', h6, h7, h8⟩
          rw [hgood]
          by_cases hl : len = 8
          · subst hl
            rw [if_neg (by simp)]
            by_cases hiv : off + 8 ≤ iv.length
            · rw [(iv_copy iv off).1 hiv]
              simp only
              have hivl : (arrayToBinary (range iv off 8)).length = 8 := by simp [arrayToBinary, range]; omega
              cases hkk : k.key with
              | none =>
                constructor
                · rintro ⟨b, h, _⟩; cases h
                · intro _; exact ⟨⟨_, rfl⟩, rfl, rfl⟩
              | some bytes =>
                simp only
                by_cases h64 : k.size = 64
                · rw [if_pos h64]
                  by_cases hb : bytes.length = 8
                  · rw [(desNew_eq bytes c.desmode c.padmode _ hivl).1 hb]
                    constructor
                    · intro _; exact ⟨rfl, rfl, rfl⟩
                    · intro h; exact absurd ⟨bytes, rfl, trivial, hiv, by rw [if_pos h64]; exact hb⟩ h
                  · rw [(desNew_eq bytes c.desmode c.padmode _ hivl).2 hb]
                    constructor
                    · rintro ⟨b, h1, _, _, h2⟩
                      injection h1 with h1; subst h1
                      rw [if_pos h64] at h2
                      exact absurd h2 hb
                    · intro _; exact ⟨⟨_, rfl⟩, rfl, rfl⟩
                · rw [if_neg h64]
                  by_cases hb : bytes.length = 16 ∨ bytes.length = 24
                  · rw [(tripleNew_eq bytes c.desmode c.padmode _ hivl).1 hb]
                    constructor
                    · intro _; exact ⟨rfl, rfl, rfl⟩
                    · intro h; exact absurd ⟨bytes, rfl, trivial, hiv, by rw [if_neg h64]; exact hb⟩ h
                  · rw [(tripleNew_eq bytes c.desmode c.padmode _ hivl).2 hb]
                    constructor
                    · rintro ⟨b, h1, _, _, h2⟩
                      injection h1 with h1; subst h1
                      rw [if_neg h64] at h2
                      exact absurd h2 hb
                    · intro _; exact ⟨⟨_, rfl⟩, rfl, rfl⟩
            · obtain ⟨l, hl⟩ := (iv_copy iv off).2 (by omega)
              rw [hl]
              constructor
              · rintro ⟨b, _, _, h, _⟩; exact absurd h hiv
              · intro _; exact ⟨⟨_, rfl⟩, rfl, rfl⟩
          · rw [if_pos hl]
            constructor
            · rintro ⟨b, _, h, _⟩; exact absurd h hl
            · intro _; exact ⟨⟨_, rfl⟩, rfl, rfl⟩
      · have hm' : ¬ (mode = 1 ∨ mode = 2) := by unfold MODE_ENCRYPT MODE_DECRYPT at hm; omega
        rw [if_pos hm]
        constructor
        · rintro ⟨_, _, _, _, _, _, _, h, _⟩; exact absurd h hm'
        · intro _; exact ⟨⟨_, rfl⟩, rfl, rfl⟩
    · rw [if_pos hi]
      constructor
      · rintro ⟨r', k', b, h1, h2, h3, _⟩
        simp only [KeyArg.key.injEq] at h1
        subst h1
        simp only at h2
        rw [h2] at hi
        exact absurd h3 hi
      · intro _; exact ⟨⟨_, rfl⟩, rfl, rfl⟩

/-- C55. After any history of `init` calls, a DES cipher is initialised exactly when one of them was good; otherwise
`doFinal` and `update` raise INVALID_INIT and write nothing. -/
theorem C55_des_initialised_iff (alg : Int) (l : List DESInitCall) :
    ((desInits (DESCipher.new alg) l).base.initialized = true ↔ ∃ a ∈ l, a.Good) ∧
    ((¬ ∃ a ∈ l, a.Good) → (desInits (DESCipher.new alg) l).update = .error (.crypto 4) ∧
      ∀ inB io il outB oo, (desInits (DESCipher.new alg) l).doFinal inB io il outB oo = (.error (.crypto 4), outB, desInits (DESCipher.new alg) l)) := by
  have key : ∀ c : DESCipher, (desInits c l).base.initialized = true ↔ c.base.initialized = true ∨ ∃ a ∈ l, a.Good := by
    induction l with
    | nil => intro c; simp [desInits]
    | cons a l ih =>
      intro c
      have e : desInits c (a :: l) = desInits (c.init a.heap a.key a.mode a.iv a.off a.len).2 l := rfl
      rw [e, ih]
      by_cases hg : a.Good
      · have := ((C55_des_init c a).1 hg).2.1
        simp [this, hg]
      · have := ((C55_des_init c a).2 hg).2.2
        simp [this, hg]
  have h1 : (desInits (DESCipher.new alg) l).base.initialized = true ↔ ∃ a ∈ l, a.Good := by
    rw [key]; simp [DESCipher.new, CipherBase.new]
  refine ⟨h1, ?_⟩
  intro hn
  have hf : (desInits (DESCipher.new alg) l).base.initialized = false := by
    cases hb : (desInits (DESCipher.new alg) l).base.initialized with
    | false => rfl
    | true => exact absurd (h1.1 hb) hn
  constructor
  · simp [DESCipher.update, hf, INVALID_INIT]
  · intro inB io il outB oo
    simp [DESCipher.doFinal, hf, INVALID_INIT]

/-- C55, what fails: an RSA cipher set up for encryption, then given a DES key for decryption (refused), decrypts from then on
with the old RSA key. -/
theorem C55_failed_init_changes_mode : ∃ (heap : KeyHeap) (c c' : RSACipher),
    ((RSACipher.new 12).init heap (.key 0) 2) = (.ok (), c) ∧ c.init heap (.key 1) 1 = (.error (.crypto 1), c') ∧
    c'.base.initialized = true ∧ c'.theKey = some 0 ∧ c.base.mode = some 2 ∧ c'.base.mode = some 1 :=
  ⟨fun r => if r = 0 then .rsa { RSAKey.new true 16 with initialized := true } else .des ((DESKey.new 3 64).setKey [1, 2, 3, 4, 5, 6, 7, 8] 0),
   _, _, rfl, rfl, rfl, rfl, rfl, rfl⟩

/-! ### C56 -/

/-- C56. The two-argument `getInstance`: RSA for algorithms 10 and 12, DES for 1, 4, 5 and 8, with the algorithm reported as
requested; NO_SUCH_ALGORITHM for every other number. -/
theorem C56_two_arguments (a x : Int) :
    ((a = 10 ∨ a = 12) ∧ ∃ c, cipherGetInstance [a, x] = .ok (.rsa, c) ∧ c.algorithm = a ∧ c.initialized = false) ∨
    ((a = 1 ∨ a = 4 ∨ a = 5 ∨ a = 8) ∧ ∃ c, cipherGetInstance [a, x] = .ok (.des, c) ∧ c.algorithm = a ∧ c.initialized = false) ∨
    (¬ (a = 10 ∨ a = 12 ∨ a = 1 ∨ a = 4 ∨ a = 5 ∨ a = 8) ∧ cipherGetInstance [a, x] = .error (.crypto 3)) := by
  unfold cipherGetInstance selectCipher
  simp only
  by_cases h1 : a = 12 ∨ a = 10
  · rw [if_pos h1]; exact .inl ⟨by omega, _, rfl, rfl, rfl⟩
  · rw [if_neg h1]
    by_cases h2 : a = 5 ∨ a = 8 ∨ a = 1 ∨ a = 4
    · rw [if_pos h2]; exact .inr (.inl ⟨by omega, _, rfl, rfl, rfl⟩)
    · rw [if_neg h2]; exact .inr (.inr ⟨by omega, rfl⟩)

/-- The algorithm number of the two-argument form for a supported cipher and padding. -/
def oldName (c p : Int) : Option Int :=
  if c = 7 ∧ p = 1 then some 12 else if c = 7 ∧ p = 7 then some 10
  else if c = 3 ∧ p = 1 then some 1 else if c = 3 ∧ p = 6 then some 4
  else if c = 4 ∧ p = 1 then some 5 else if c = 4 ∧ p = 6 then some 8 else none

/-- C56. The three-argument form: for the six supported combinations it is the two-argument form with the corresponding
algorithm; a known cipher (3, 4, 7) with another padding is a TypeError, any other cipher an UnboundLocalError. -/
theorem C56_three_arguments (c p x : Int) :
    (∀ a, oldName c p = some a → cipherGetInstance [c, p, x] = cipherGetInstance [a, x] ∧ ∃ r, cipherGetInstance [a, x] = .ok r) ∧
    (oldName c p = none → cipherGetInstance [c, p, x] = .error (if c = 3 ∨ c = 4 ∨ c = 7 then .typeError else .unboundLocalError)) := by
  by_cases h7 : c = 7
  · subst h7
    by_cases p1 : p = 1
    · subst p1
      have e : oldName 7 1 = some 12 := rfl
      refine ⟨fun a ha => ?_, fun h => absurd (e.symm.trans h) (by simp)⟩
      have := Option.some.inj (e.symm.trans ha)
      subst this; exact ⟨rfl, _, rfl⟩
    by_cases p7 : p = 7
    · subst p7
      have e : oldName 7 7 = some 10 := rfl
      refine ⟨fun a ha => ?_, fun h => absurd (e.symm.trans h) (by simp)⟩
      have := Option.some.inj (e.symm.trans ha)
      subst this; exact ⟨rfl, _, rfl⟩
    have : oldName 7 p = none := by simp [oldName, p1, p7]
    refine ⟨fun a ha => absurd (this.symm.trans ha) (by simp), fun _ => ?_⟩
    simp [cipherGetInstance, mapAlgorithm, p1, p7, selectCipher]
  by_cases h3 : c = 3
  · subst h3
    by_cases p1 : p = 1
    · subst p1
      have e : oldName 3 1 = some 1 := rfl
      refine ⟨fun a ha => ?_, fun h => absurd (e.symm.trans h) (by simp)⟩
      have := Option.some.inj (e.symm.trans ha)
      subst this; exact ⟨rfl, _, rfl⟩
    by_cases p6 : p = 6
    · subst p6
      have e : oldName 3 6 = some 4 := rfl
      refine ⟨fun a ha => ?_, fun h => absurd (e.symm.trans h) (by simp)⟩
      have := Option.some.inj (e.symm.trans ha)
      subst this; exact ⟨rfl, _, rfl⟩
    have : oldName 3 p = none := by simp [oldName, p1, p6]
    refine ⟨fun a ha => absurd (this.symm.trans ha) (by simp), fun _ => ?_⟩
    simp [cipherGetInstance, mapAlgorithm, p1, p6, selectCipher]
  by_cases h4 : c = 4
  · subst h4
    by_cases p1 : p = 1
    · subst p1
      have e : oldName 4 1 = some 5 := rfl
      refine ⟨fun a ha => ?_, fun h => absurd (e.symm.trans h) (by simp)⟩
      have := Option.some.inj (e.symm.trans ha)
      subst this; exact ⟨rfl, _, rfl⟩
    by_cases p6 : p = 6
    · subst p6
      have e : oldName 4 6 = some 8 := rfl
      refine ⟨fun a ha => ?_, fun h => absurd (e.symm.trans h) (by simp)⟩
      have := Option.some.inj (e.symm.trans ha)
      subst this; exact ⟨rfl, _, rfl⟩
    have : oldName 4 p = none := by simp [oldName, p1, p6]
    refine ⟨fun a ha => absurd (this.symm.trans ha) (by simp), fun _ => ?_⟩
    simp [cipherGetInstance, mapAlgorithm, p1, p6, selectCipher]
  have : oldName c p = none := by simp [oldName, h3, h4, h7]
  refine ⟨fun a ha => absurd (this.symm.trans ha) (by simp), fun _ => ?_⟩
  simp [cipherGetInstance, mapAlgorithm, h3, h4, h7]

/-- C56. Any other number of arguments is a TypeError. -/
theorem C56_arity (args : List Int) (h2 : args.length ≠ 2) (h3 : args.length ≠ 3) : cipherGetInstance args = .error .typeError := by
  match args, h2, h3 with
  | [], _, _ => rfl
  | [_], _, _ => rfl
  | [_, _], h, _ => simp at h
  | [_, _, _], _, h => simp at h
  | _ :: _ :: _ :: _ :: rest, _, _ => simp [cipherGetInstance]

example : oldName 7 7 = some 10 ∧ oldName 3 6 = some 4 ∧ oldName 4 1 = some 5 := ⟨rfl, rfl, rfl⟩

end Verif.Props
