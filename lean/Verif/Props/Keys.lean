import Verif.Lemmas.Key
import Verif.Lemmas.Arrays
/-! C49-C54: key material. -/
namespace Verif.Props
open Verif.Py Verif.Model Verif.Spec

/-! ### C49 -/

theorem arrayToBinary_elem (x : Int) : ((iand x 0xff).toNat : Int) = x % 256 := by
  have : iand x 0xff = x % 256 := by simp
  rw [this]
  omega

/-- C49. Array to bytes and back gives, cell by cell, the signed byte with the same low 8 bits. -/
theorem C49_roundtrip (a : List Int) : (binaryToArray (arrayToBinary a)).length = a.length ∧
    ∀ i, (h : i < a.length) → ∃ s, (binaryToArray (arrayToBinary a))[i]? = some s ∧ IsSignedOf 8 a[i] s := by
  refine ⟨by simp [binaryToArray, arrayToBinary], ?_⟩
  intro i h
  refine ⟨s1 (a[i] % 256), ?_, ?_⟩
  · have := arrayToBinary_elem a[i]
    simp [binaryToArray, arrayToBinary, h]
    rw [← this]
    simp
  · have h1 := s1_isByte (a[i] % 256) (by omega) (by omega)
    have h2 := s1_mod (a[i] % 256)
    refine ⟨by simp; omega, by simp; omega, ?_⟩
    have : (2 ^ 8 : Int) = 256 := by decide
    rw [this]
    omega

/-- C49. Only the low 8 bits of each cell matter. -/
theorem C49_low_bits (a b : List Int) (hl : a.length = b.length) (h : ∀ i, (h1 : i < a.length) → (h2 : i < b.length) → (256 : Int) ∣ a[i] - b[i]) :
    arrayToBinary a = arrayToBinary b := by
  apply List.ext_getElem
  · simpa [arrayToBinary] using hl
  · intro i h1 h2
    simp only [arrayToBinary, List.getElem_map, List.length_map] at h1 h2 ⊢
    have e1 := arrayToBinary_elem a[i]
    have e2 := arrayToBinary_elem b[i]
    have := h i h1 h2
    omega

/-- C49. Bytes to array and back is the identity; on an array of signed bytes, so is the other round trip. -/
theorem C49_identity (bs : List Nat) (hb : ∀ b ∈ bs, b < 256) (a : List Int) (ha : Bytes a) :
    arrayToBinary (binaryToArray bs) = bs ∧ binaryToArray (arrayToBinary a) = a := by
  constructor
  · apply List.ext_getElem
    · simp [arrayToBinary, binaryToArray]
    · intro i h1 h2
      simp only [arrayToBinary, binaryToArray, List.getElem_map, List.length_map] at h1 ⊢
      have e := arrayToBinary_elem (s1 (bs[i] : Int))
      have hm := s1_mod (bs[i] : Int)
      have := hb bs[i] (List.getElem_mem h2)
      omega
  · apply List.ext_getElem
    · simp [arrayToBinary, binaryToArray]
    · intro i h1 h2
      simp only [arrayToBinary, binaryToArray, List.getElem_map, List.length_map] at h1 ⊢
      have e := arrayToBinary_elem a[i]
      rw [e]
      have hB := ha a[i] (List.getElem_mem h2)
      unfold IsByte at hB
      by_cases h : 0 ≤ a[i]
      · rw [s1_byte _ (by omega)]; omega
      · rw [s1_high _ (by omega) (by omega)]; omega

example : binaryToArray (arrayToBinary [255, -1, 128, 127, 300]) = [-1, -1, -128, 127, 44] := by rfl

/-! ### C50 -/

/-- C50. Python 2: number to bytes and back is the identity. -/
theorem C50_py2 (n : Nat) : arrayToLong (longToArray true n) = n := by
  obtain ⟨bs, h1, _, _, h4, _⟩ := longToArray_suffix n
  rw [h1, arrayToLong_nats, h4]

/-- C50. Python 3: the last hexadecimal digit is lost. -/
theorem C50_py3 (n : Nat) : arrayToLong (longToArray false n) = (n / 16 : Nat) := by
  rw [longToArray_no_suffix]
  split
  · next h => rw [arrayToLong_nil]; omega
  · exact C50_py2 _

/-- C50. The bytes are the little-endian base-256 digits of the number, without a zero at the end. -/
theorem C50_digits (n : Nat) (hn : 0 < n) : ∃ ds : List Nat, longToArray true n = ds.map (fun d : Nat => (d : Int)) ∧ (∀ d ∈ ds, d < 256) ∧
    positional 256 ds.reverse = n ∧ ds.getLast? ≠ some 0 := by
  obtain ⟨bs, h1, h2, _, h4, h5⟩ := longToArray_suffix n
  exact ⟨bs, h1, h2, h4, h5 hn⟩

/-- C50. Bytes to number and back (Python 2) is the identity exactly on non-empty arrays of unsigned bytes whose last cell
is not 0, and on [0]; trailing zeros are dropped. -/
theorem C50_bytes_back (ds : List Nat) (hd : ∀ d ∈ ds, d < 256) :
    longToArray true (positional 256 ds.reverse) = ds.map (fun d : Nat => (d : Int)) ↔ (ds ≠ [] ∧ ds.getLast? ≠ some 0) ∨ ds = [0] := by
  constructor
  · intro h
    obtain ⟨bs, h1, h2, h3, h4, h5⟩ := longToArray_suffix (positional 256 ds.reverse)
    rw [h1] at h
    have hb : bs = ds := by
      apply List.ext_getElem
      · have := congrArg List.length h; simpa using this
      · intro i g1 g2
        have := congrArg (fun l => l[i]?) h
        simp [g1, g2] at this
        omega
    subst hb
    by_cases hz : bs.getLast? = some 0
    · right
      have hv : ¬ 0 < positional 256 bs.reverse := fun hp => h5 hp hz
      have h0 : positional 256 bs.reverse = 0 := by omega
      rw [h0] at h1
      have : longToArray true 0 = [0] := by rfl
      rw [this] at h1
      cases bs with
      | nil => simp at h1
      | cons b bs =>
        cases bs with
        | nil => simp at h1; simp; omega
        | cons c bs => simp at h1
    · exact .inl ⟨h3, hz⟩
  · rintro (⟨h1, h2⟩ | rfl)
    · exact longToArray_of_le ds hd h1 h2
    · rfl

/-- C50. The array is read little-endian (a Java Card modulus is big-endian). -/
theorem C50_little_endian (ds : List Nat) : arrayToLong (ds.map fun d : Nat => (d : Int)) = (positional 256 ds.reverse : Nat) := arrayToLong_nats ds

theorem arrayToLong_lt (l : List Int) (h : Bytes l) : arrayToLong l < 256 ^ l.length := by
  induction l with
  | nil => decide
  | cons x xs ih =>
    have := ih (fun y hy => h y (by simp [hy]))
    have hx := h x (by simp)
    unfold IsByte at hx
    rw [arrayToLong_cons, List.length_cons, Int.pow_succ]
    omega

/-- C50. An array of signed bytes whose last (most significant) byte is negative - half of all moduli - is read as a negative
number. -/
theorem C50_signed_negative (l : List Int) (x : Int) (h : Bytes l) (hx : x < 0) : arrayToLong (l ++ [x]) < 0 := by
  rw [arrayToLong_append, arrayToLong_cons, arrayToLong_nil]
  have h1 := arrayToLong_lt l h
  have h2 : (0 : Int) < 256 ^ l.length := Int.pow_pos (by decide)
  have h3 : (256 : Int) ^ l.length * (x + 256 * 0) ≤ 256 ^ l.length * (-1) := Int.mul_le_mul_of_nonneg_left (by omega) (by omega)
  omega

example : arrayToLong [1, -128] = -32767 := by rfl
example : longToArray true 0x1234 = [0x34, 0x12] ∧ longToArray false 0x1234 = [0x23, 0x01] := ⟨rfl, rfl⟩

/-! ### C51 -/

/-- C51. After `setKey` from a place with enough cells, the key is initialised and `getKey` writes the signed spelling of
exactly those `size / 8` cells. -/
theorem C51_read_back (k : DESKey) (n : Nat) (hs : k.size / 8 = n) (src dst : List Int) (so d : Nat) (h1 : so + n ≤ src.length) (h2 : d + n ≤ dst.length) :
    (k.setKey src so).initialized = true ∧ ∃ dst' vs, (k.setKey src so).getKey dst d = (.ok (), dst') ∧ Written dst dst' d vs ∧ vs.length = n ∧
      ∀ i, (h : i < n) → ∃ s, vs[i]? = some s ∧ IsSignedOf 8 (src[so + i]'(by omega)) s := by
  refine ⟨rfl, ?_⟩
  have hsl : slice src (so : Int) ((so : Int) + k.size / 8) = range src so n := by rw [hs, slice_add]; rfl
  obtain ⟨r1, r2⟩ := C49_roundtrip (range src so n)
  have hrl : (range src so n).length = n := by simp [range]; omega
  have hcp := arrayCopy_ok (binaryToArray (arrayToBinary (range src so n))) dst 0 d n (by rw [r1, hrl]; omega) h2
  rw [show ((0 : Nat) : Int) = 0 from rfl, List.drop_zero, List.take_of_length_le (by rw [r1, hrl]; omega)] at hcp
  refine ⟨_, binaryToArray (arrayToBinary (range src so n)), ?_, written_splice dst d _ (by rw [r1, hrl]; omega), by rw [r1, hrl], ?_⟩
  · unfold DESKey.getKey DESKey.setKey
    simp only
    rw [hsl, hs, hcp]
  · intro i hi
    obtain ⟨s, hs1, hs2⟩ := r2 i (by omega)
    refine ⟨s, hs1, ?_⟩
    have : (range src so n)[i]'(by omega) = src[so + i]'(by omega) := by simp [range]
    rw [this] at hs2
    exact hs2

/-- C51. A source that is too short is accepted without complaint: the key counts as initialised, but `getKey` raises. -/
theorem C51_short_source (k : DESKey) (n : Nat) (hs : k.size / 8 = n) (src dst : List Int) (so d : Nat) (h1 : src.length < so + n) (hn : 0 < n) :
    (k.setKey src so).initialized = true ∧ ((k.setKey src so).getKey dst d).1 = .error .arrayIndexOutOfBounds := by
  refine ⟨rfl, ?_⟩
  have hsl : slice src (so : Int) ((so : Int) + k.size / 8) = range src so n := by rw [hs, slice_add]; rfl
  have hrl : (range src so n).length < n := by simp [range]; omega
  have hcp := arrayCopy_eq (binaryToArray (arrayToBinary (range src so n))) dst 0 d n
  rw [show ((0 : Nat) : Int) = 0 from rfl] at hcp
  unfold DESKey.getKey DESKey.setKey
  simp only
  rw [hsl, hs, hcp]
  simp only
  have : (binaryToArray (arrayToBinary (range src so n))).length = (range src so n).length := (C49_roundtrip _).1
  rw [if_neg (by omega)]

/-- C51. A new key is not initialised; `getKey` on it is a TypeError (not UNINITIALIZED_KEY), and `clearKey` changes nothing. -/
theorem C51_new_and_clear (t s : Int) (k : DESKey) (dst : List Int) (d : Int) :
    (DESKey.new t s).initialized = false ∧ (DESKey.new t s).getKey dst d = (.error .typeError, dst) ∧ k.clearKey = k := ⟨rfl, rfl, rfl⟩

example : ((DESKey.new 3 64).setKey [9, 255, 1, 2, 3, 4, 5, 6, 7, 9] 1).getKey (List.replicate 8 0) 0 = (.ok (), [-1, 1, 2, 3, 4, 5, 6, 7]) := by rfl

/-! ### C52 -/

/-- The call gives the key an exponent. -/
def SetsExponent : RSAKey.Op → Bool
  | .setExponent _ _ _ => true
  | .setTheKey _ => true
  | _ => false

/-- The call gives a key of the given size a modulus: a modulus of the wrong length does not. -/
def SetsModulus (size : Int) : RSAKey.Op → Bool
  | .setModulus _ _ l => l == size / 8
  | .setTheKey _ => true
  | _ => false

theorem rsa_afterSet (k : RSAKey) (h : k.initialized = true → k.modulus.isSome && k.exponent.isSome) :
    ((k.afterSet true).1 = .ok ()) ∧ (k.afterSet true).2.initialized = (k.modulus.isSome && k.exponent.isSome) ∧
    (k.afterSet true).2.exponent = k.exponent ∧ (k.afterSet true).2.modulus = k.modulus ∧ (k.afterSet true).2.size = k.size ∧
    (k.afterSet true).2.isPublic = k.isPublic := by
  unfold RSAKey.afterSet
  cases hm : k.modulus <;> cases he : k.exponent
  all_goals simp only [hm, he] at h ⊢
  · simp at h; simp [h]
  · simp at h; simp [h]
  · simp at h; simp [h]
  · by_cases hp : k.isPublic = true ∧ k.theKey = none
    · simp [hp]
    · rw [if_neg hp]; simp

/-- The invariant of an RSA key's life. -/
def RsaInv (k : RSAKey) : Prop := k.initialized = (k.modulus.isSome && k.exponent.isSome)

theorem rsa_step (ls : Bool) (k : RSAKey) (op : RSAKey.Op) (h : RsaInv k) :
    RsaInv (k.step true ls op).2 ∧ (k.step true ls op).2.size = k.size ∧ (k.step true ls op).2.isPublic = k.isPublic ∧
    (k.step true ls op).2.exponent.isSome = (k.exponent.isSome || SetsExponent op) ∧
    (k.step true ls op).2.modulus.isSome = (k.modulus.isSome || SetsModulus k.size op) := by
  unfold RsaInv at *
  cases op with
  | setExponent b o l =>
    obtain ⟨_, h2, h3, h4, h5, h6⟩ := rsa_afterSet { k with exponent := some (slice b o (o + l)) } (by simp only; intro hi; rw [hi] at h; simp at h; simp [h.1, h.2])
    simp only [RSAKey.step, RSAKey.setExponent]
    rw [h2, h3, h4, h5, h6]
    simp [SetsExponent, SetsModulus]
  | setModulus b o l =>
    simp only [RSAKey.step, RSAKey.setModulus]
    by_cases hl : l ≠ k.size / 8
    · rw [if_pos hl]
      have : (l == k.size / 8) = false := by simpa using hl
      simp [SetsExponent, SetsModulus, h, this]
    · rw [if_neg hl]
      obtain ⟨_, h2, h3, h4, h5, h6⟩ := rsa_afterSet { k with modulus := some (slice b o (o + l)) } (by simp only; intro hi; rw [hi] at h; simp at h; simp [h.1, h.2])
      rw [h2, h3, h4, h5, h6]
      have : (l == k.size / 8) = true := by simpa using hl
      simp [SetsExponent, SetsModulus, this]
  | setTheKey t =>
    obtain ⟨_, h2, h3, h4, h5, h6⟩ := rsa_afterSet { k with theKey := some (.given t), exponent := some (longToArray ls t.e), modulus := some (longToArray ls (if k.isPublic then t.n else t.d)) }
      (by simp)
    simp only [RSAKey.step, RSAKey.setTheKey]
    rw [h2, h3, h4, h5, h6]
    simp [SetsExponent, SetsModulus]
  | clearKey =>
    simp [RSAKey.step, RSAKey.clearKey, SetsExponent, SetsModulus, h]

theorem rsa_run (ls : Bool) (k : RSAKey) (ops : List RSAKey.Op) (h : RsaInv k) :
    RsaInv (k.run true ls ops) ∧ (k.run true ls ops).size = k.size ∧ (k.run true ls ops).isPublic = k.isPublic ∧
    (k.run true ls ops).exponent.isSome = (k.exponent.isSome || ops.any SetsExponent) ∧
    (k.run true ls ops).modulus.isSome = (k.modulus.isSome || ops.any (SetsModulus k.size)) := by
  induction ops generalizing k with
  | nil => simp [RSAKey.run, h]
  | cons op ops ih =>
    obtain ⟨s1, s2, s3, s4, s5⟩ := rsa_step ls k op h
    obtain ⟨i1, i2, i3, i4, i5⟩ := ih (k.step true ls op).2 s1
    have e : k.run true ls (op :: ops) = ((k.step true ls op).2).run true ls ops := rfl
    rw [e, i2, i3, i4, i5, s2, s3, s4, s5]
    simp [i1, Bool.or_assoc]

/-- C52. Whatever the history, an RSA key is initialised exactly when some call gave it an exponent and some call gave it a
modulus of the right length. -/
theorem C52_initialized_iff (ls isPublic : Bool) (size : Int) (ops : List RSAKey.Op) :
    ((RSAKey.new isPublic size).run true ls ops).initialized = true ↔ ops.any SetsExponent = true ∧ ops.any (SetsModulus size) = true := by
  obtain ⟨h1, _, _, h4, h5⟩ := rsa_run ls (RSAKey.new isPublic size) ops rfl
  unfold RsaInv at h1
  rw [h1, h4, h5]
  simp [RSAKey.new, and_comm]

/-- C52. A modulus of the wrong length is refused and changes nothing. -/
theorem C52_wrong_length (lib : Bool) (k : RSAKey) (b : List Int) (o l : Int) (h : l ≠ k.size / 8) :
    k.setModulus lib b o l = (.error (if k.isPublic then .crypto 4 else .crypto 1), k) := by
  unfold RSAKey.setModulus
  rw [if_pos h]
  rfl

/-- C52. With the library present every other setter call succeeds, at any point of a history. -/
theorem C52_setters_succeed (ls isPublic : Bool) (size : Int) (ops : List RSAKey.Op) (op : RSAKey.Op)
    (h : ∀ b o l, op = .setModulus b o l → l = size / 8) : (((RSAKey.new isPublic size).run true ls ops).step true ls op).1 = .ok () := by
  obtain ⟨h1, h2, _⟩ := rsa_run ls (RSAKey.new isPublic size) ops rfl
  unfold RsaInv at h1
  generalize (RSAKey.new isPublic size).run true ls ops = k at *
  cases op with
  | setExponent b o l => exact (rsa_afterSet { k with exponent := some (slice b o (o + l)) } (by simp only; intro hi; rw [hi] at h1; simp at h1; simp [h1.1, h1.2])).1
  | setModulus b o l =>
    simp only [RSAKey.step, RSAKey.setModulus]
    rw [if_neg (by rw [h2, h b o l rfl]; simp [RSAKey.new])]
    exact (rsa_afterSet { k with modulus := some (slice b o (o + l)) } (by simp only; intro hi; rw [hi] at h1; simp at h1; simp [h1.1, h1.2])).1
  | setTheKey t =>
    exact (rsa_afterSet { k with theKey := some (.given t), exponent := some (longToArray ls t.e), modulus := some (longToArray ls (if k.isPublic then t.n else t.d)) } (by simp)).1
  | clearKey => rfl

/-- C52. Before that, the getters raise UNINITIALIZED_KEY and write nothing. -/
theorem C52_uninitialised_getters (k : RSAKey) (h : k.initialized = false) (buf : List Int) (o : Int) :
    k.getExponent buf o = (.error (.crypto 2), buf) ∧ k.getModulus buf o = (.error (.crypto 2), buf) := by
  unfold RSAKey.getExponent RSAKey.getModulus RSAKey.getComponent
  simp [h, UNINITIALIZED_KEY]

/-- C52. Without the library a public key that is given only numbers never becomes usable: a setter that completes it raises NO_SUCH_ALGORITHM, every time,
although the number is stored; a private key does not need the library at all. -/
theorem C52_without_library (ls : Bool) (size : Int) (ops : List RSAKey.Op) :
    (RSAKey.new false size).run false ls ops = (RSAKey.new false size).run true ls ops ∧
    ((∀ t, .setTheKey t ∉ ops) →
      ((RSAKey.new true size).run false ls ops).initialized = false ∧
      (∀ b o l, (((RSAKey.new true size).run false ls ops).step false ls (.setExponent b o l)).1 = if ops.any (SetsModulus size) then .error (.crypto 3) else .ok ()) ∧
      (∀ b o, (((RSAKey.new true size).run false ls ops).step false ls (.setModulus b o (size / 8))).1 = if ops.any SetsExponent then .error (.crypto 3) else .ok ())) := by
  constructor
  · have key : ∀ (ops : List RSAKey.Op) (k : RSAKey), k.isPublic = false → k.run false ls ops = k.run true ls ops := by
      intro ops
      induction ops with
      | nil => intro k _; rfl
      | cons op ops ih =>
        intro k hk
        have ha : ∀ k' : RSAKey, k'.isPublic = false → k'.afterSet false = k'.afterSet true ∧ (k'.afterSet true).2.isPublic = false := by
          intro k' h'
          unfold RSAKey.afterSet
          cases k'.modulus <;> cases k'.exponent <;> simp [h']
        have e : k.step false ls op = k.step true ls op ∧ (k.step true ls op).2.isPublic = false := by
          cases op with
          | setExponent b o l => exact ha _ hk
          | setModulus b o l =>
            simp only [RSAKey.step, RSAKey.setModulus]
            split
            · exact ⟨rfl, hk⟩
            · exact ha _ hk
          | setTheKey t => exact ha { k with theKey := some (.given t), exponent := some (longToArray ls t.e), modulus := some (longToArray ls (if k.isPublic then t.n else t.d)) } hk
          | clearKey => exact ⟨rfl, hk⟩
        show (k.step false ls op).2.run false ls ops = (k.step true ls op).2.run true ls ops
        rw [e.1]
        exact ih _ e.2
    exact key ops _ rfl
  · intro hn
    have key : ∀ (ops : List RSAKey.Op) (k : RSAKey), (∀ t, .setTheKey t ∉ ops) → k.isPublic = true → k.theKey = none → k.initialized = false →
        (k.run false ls ops).isPublic = true ∧ (k.run false ls ops).theKey = none ∧ (k.run false ls ops).initialized = false ∧ (k.run false ls ops).size = k.size ∧
        (k.run false ls ops).exponent.isSome = (k.exponent.isSome || ops.any SetsExponent) ∧
        (k.run false ls ops).modulus.isSome = (k.modulus.isSome || ops.any (SetsModulus k.size)) := by
      intro ops
      induction ops with
      | nil => intro k _ h1 h2 h3; simp [RSAKey.run, h1, h2, h3]
      | cons op ops ih =>
        intro k hn h1 h2 h3
        have ha : ∀ k' : RSAKey, k'.isPublic = true → k'.theKey = none → (k'.afterSet false).2 = k' := by
          intro k' g1 g2
          unfold RSAKey.afterSet
          cases k'.modulus <;> cases k'.exponent <;> simp [g1, g2]
        have hn' : ∀ t, .setTheKey t ∉ ops := fun t ht => hn t (by simp [ht])
        show ((k.step false ls op).2.run false ls ops).isPublic = true ∧ _
        have e : k.run false ls (op :: ops) = (k.step false ls op).2.run false ls ops := rfl
        rw [e]
        cases op with
        | setExponent b o l =>
          have : (k.step false ls (.setExponent b o l)).2 = { k with exponent := some (slice b o (o + l)) } := ha _ h1 h2
          rw [this]
          have := ih { k with exponent := some (slice b o (o + l)) } hn' h1 h2 h3
          simpa [SetsExponent, SetsModulus] using this
        | setModulus b o l =>
          by_cases hl : l ≠ k.size / 8
          · have : (k.step false ls (.setModulus b o l)).2 = k := by simp only [RSAKey.step, RSAKey.setModulus]; rw [if_pos hl]
            rw [this]
            have hb : (l == k.size / 8) = false := by simpa using hl
            have := ih k hn' h1 h2 h3
            simpa [SetsExponent, SetsModulus, hb] using this
          · have : (k.step false ls (.setModulus b o l)).2 = { k with modulus := some (slice b o (o + l)) } := by
              simp only [RSAKey.step, RSAKey.setModulus]; rw [if_neg hl]; exact ha _ h1 h2
            rw [this]
            have hb : (l == k.size / 8) = true := by simpa using hl
            have := ih { k with modulus := some (slice b o (o + l)) } hn' h1 h2 h3
            simpa [SetsExponent, SetsModulus, hb] using this
        | setTheKey t => exact absurd (by simp) (hn t)
        | clearKey =>
          have := ih k hn' h1 h2 h3
          simpa [SetsExponent, SetsModulus, RSAKey.step, RSAKey.clearKey] using this
    obtain ⟨g1, g2, g3, g4, g5, g6⟩ := key ops (RSAKey.new true size) hn rfl rfl rfl
    generalize (RSAKey.new true size).run false ls ops = k at *
    have hs : k.size = size := g4
    have g5 : k.exponent.isSome = ops.any SetsExponent := by simpa [RSAKey.new] using g5
    have g6 : k.modulus.isSome = ops.any (SetsModulus size) := by simpa [RSAKey.new] using g6
    refine ⟨g3, fun b o l => ?_, fun b o => ?_⟩
    · rw [← g6]
      show (RSAKey.afterSet false _).1 = _
      unfold RSAKey.afterSet
      cases k.modulus <;> simp [g1, g2, NO_SUCH_ALGORITHM]
    · rw [← g5]
      show (RSAKey.setModulus false k b o (size / 8)).1 = _
      unfold RSAKey.setModulus RSAKey.afterSet
      rw [if_neg (by rw [hs]; simp)]
      cases k.exponent <;> simp [g1, g2, NO_SUCH_ALGORITHM]

example : (((RSAKey.new true 16).run false false [.setExponent [3] 0 1]).step false false (.setModulus [1, 2] 0 2)).1 = .error (.crypto 3) := by rfl

/-- C52. Once initialised, a key stays initialised; `clearKey` in particular does not clear it. -/
theorem C52_stays (ls isPublic : Bool) (size : Int) (ops later : List RSAKey.Op) (h : ((RSAKey.new isPublic size).run true ls ops).initialized = true) :
    ((RSAKey.new isPublic size).run true ls (ops ++ later)).initialized = true ∧
    (RSAKey.new isPublic size).run true ls (ops ++ [.clearKey]) = (RSAKey.new isPublic size).run true ls ops := by
  constructor
  · rw [C52_initialized_iff] at *
    simp only [List.any_append]
    simp [h.1, h.2]
  · unfold RSAKey.run
    rw [List.foldl_append]
    rfl

theorem component_get (k : RSAKey) (c : List Int) (hi : k.initialized = true) (buf : List Int) (o : Nat) (h : o + c.length ≤ buf.length) :
    ∃ buf', k.getComponent (some c) buf o = (.ok (c.length : Int), buf') ∧ Written buf buf' o c := by
  have := arrayCopy_ok c buf 0 o c.length (by omega) h
  rw [show ((0 : Nat) : Int) = 0 from rfl] at this
  refine ⟨splice buf o c, ?_, written_splice buf o c h⟩
  unfold RSAKey.getComponent
  rw [if_neg (by simp [hi])]
  simp only
  rw [this]
  simp

theorem rsa_exponent_kept (ls : Bool) (k : RSAKey) (ops : List RSAKey.Op) (h : RsaInv k) (hn : ops.any SetsExponent = false) :
    (k.run true ls ops).exponent = k.exponent := by
  induction ops generalizing k with
  | nil => rfl
  | cons op ops ih =>
    simp only [List.any_cons, Bool.or_eq_false_iff] at hn
    have e : k.run true ls (op :: ops) = ((k.step true ls op).2).run true ls ops := rfl
    rw [e, ih _ (rsa_step ls k op h).1 hn.2]
    unfold RsaInv at h
    cases op with
    | setExponent b o l => simp [SetsExponent] at hn
    | setTheKey t => simp [SetsExponent] at hn
    | clearKey => rfl
    | setModulus b o l =>
      simp only [RSAKey.step, RSAKey.setModulus]
      by_cases hl : l ≠ k.size / 8
      · rw [if_pos hl]
      · rw [if_neg hl]
        obtain ⟨_, _, h3, _⟩ := rsa_afterSet { k with modulus := some (slice b o (o + l)) } (by simp only; intro hi; rw [hi] at h; simp at h; simp [h.1, h.2])
        rw [h3]

theorem rsa_modulus_kept (ls : Bool) (k : RSAKey) (ops : List RSAKey.Op) (h : RsaInv k) (hn : ops.any (SetsModulus k.size) = false) :
    (k.run true ls ops).modulus = k.modulus := by
  induction ops generalizing k with
  | nil => rfl
  | cons op ops ih =>
    simp only [List.any_cons, Bool.or_eq_false_iff] at hn
    have e : k.run true ls (op :: ops) = ((k.step true ls op).2).run true ls ops := rfl
    obtain ⟨q1, q2, _⟩ := rsa_step ls k op h
    rw [e, ih _ q1 (by rw [q2]; exact hn.2)]
    unfold RsaInv at h
    cases op with
    | setExponent b o l =>
      simp only [RSAKey.step, RSAKey.setExponent]
      obtain ⟨_, _, _, h4, _⟩ := rsa_afterSet { k with exponent := some (slice b o (o + l)) } (by simp only; intro hi; rw [hi] at h; simp at h; simp [h.1, h.2])
      rw [h4]
    | setTheKey t => simp [SetsModulus] at hn
    | clearKey => rfl
    | setModulus b o l =>
      simp only [RSAKey.step, RSAKey.setModulus]
      rw [if_pos (by simpa [SetsModulus] using hn.1)]

theorem rsa_run_append (lib ls : Bool) (k : RSAKey) (a b : List RSAKey.Op) : k.run lib ls (a ++ b) = (k.run lib ls a).run lib ls b := by
  unfold RSAKey.run; rw [List.foldl_append]

/-- C52. `getExponent` of an initialised key returns the exponent of the last call that set one. -/
theorem C52_last_exponent (ls isPublic : Bool) (size : Int) (before after : List RSAKey.Op) (b : List Int) (o l : Nat)
    (hn : after.any SetsExponent = false) (k : RSAKey)
    (hk : k = (RSAKey.new isPublic size).run true ls (before ++ [.setExponent b o l] ++ after)) (hi : k.initialized = true)
    (buf : List Int) (d : Nat) (hd : d + (range b o l).length ≤ buf.length) :
    ∃ buf', k.getExponent buf d = (.ok ((range b o l).length : Int), buf') ∧ Written buf buf' d (range b o l) := by
  rw [rsa_run_append, rsa_run_append] at hk
  obtain ⟨h1, _⟩ := rsa_run ls (RSAKey.new isPublic size) before rfl
  have hs := (rsa_step ls _ (.setExponent b o l) h1).1
  have he := rsa_exponent_kept ls _ after hs hn
  have hx : k.exponent = some (range b o l) := by
    rw [hk]
    show (RSAKey.run true ls (RSAKey.step true ls _ (.setExponent b o l)).2 after).exponent = _
    rw [he]
    simp only [RSAKey.step, RSAKey.setExponent]
    unfold RsaInv at h1
    generalize (RSAKey.new isPublic size).run true ls before = k0 at h1 ⊢
    obtain ⟨_, _, h3, _⟩ := rsa_afterSet { k0 with exponent := some (slice b o (o + l)) } (by simp only; intro hi; rw [hi] at h1; simp at h1; simp [h1.1, h1.2])
    rw [h3]
    simp only
    rw [slice_add]
    rfl
  unfold RSAKey.getExponent
  rw [hx]
  exact component_get k _ hi buf d hd

/-- C52. `getModulus` of an initialised key returns the modulus of the last call that set one. -/
theorem C52_last_modulus (ls isPublic : Bool) (size : Int) (before after : List RSAKey.Op) (b : List Int) (o l : Nat) (hl : (l : Int) = size / 8)
    (hn : after.any (SetsModulus size) = false) (k : RSAKey)
    (hk : k = (RSAKey.new isPublic size).run true ls (before ++ [.setModulus b o l] ++ after)) (hi : k.initialized = true)
    (buf : List Int) (d : Nat) (hd : d + (range b o l).length ≤ buf.length) :
    ∃ buf', k.getModulus buf d = (.ok ((range b o l).length : Int), buf') ∧ Written buf buf' d (range b o l) := by
  rw [rsa_run_append, rsa_run_append] at hk
  obtain ⟨h1, hsz, _⟩ := rsa_run ls (RSAKey.new isPublic size) before rfl
  obtain ⟨hs, hs2, _⟩ := rsa_step ls _ (.setModulus b o l) h1
  have he := rsa_modulus_kept ls _ after hs (by rw [hs2, hsz]; exact hn)
  have hx : k.modulus = some (range b o l) := by
    rw [hk]
    show (RSAKey.run true ls (RSAKey.step true ls _ (.setModulus b o l)).2 after).modulus = _
    rw [he]
    simp only [RSAKey.step, RSAKey.setModulus]
    unfold RsaInv at h1
    rw [if_neg (by rw [hsz, hl]; simp [RSAKey.new])]
    generalize (RSAKey.new isPublic size).run true ls before = k0 at h1 ⊢
    obtain ⟨_, _, _, h4, _⟩ := rsa_afterSet { k0 with modulus := some (slice b o (o + l)) } (by simp only; intro hi; rw [hi] at h1; simp at h1; simp [h1.1, h1.2])
    rw [h4]
    simp only
    rw [slice_add]
    rfl
  unfold RSAKey.getModulus
  rw [hx]
  exact component_get k _ hi buf d hd

/-- A history in which the modulus is first refused, then set; the key ends up initialised. -/
example : ((RSAKey.new true 16).run true true [.setModulus [1, 2, 3] 0 3, .setExponent [3] 0 1, .setModulus [5, 6] 0 2, .clearKey]).initialized = true ∧
    ((RSAKey.new true 16).run true true [.setModulus [1, 2, 3] 0 3, .setExponent [3] 0 1]).initialized = false := ⟨rfl, rfl⟩

/-! ### C53 -/

/-- The call installs a generated key. -/
def InstallsKey : RSAKey.Op → Bool
  | .setTheKey _ => true
  | _ => false

theorem theKey_step (ls : Bool) (k : RSAKey) (op : RSAKey.Op) (h : InstallsKey op = false) (hk : k.theKey ≠ none) :
    (k.step true ls op).2.theKey = k.theKey := by
  have ha : ∀ k' : RSAKey, k'.theKey = k.theKey → (k'.afterSet true).2.theKey = k.theKey := by
    intro k' hk'
    unfold RSAKey.afterSet
    split
    · rw [if_neg (by rw [hk']; exact fun h => hk h.2)]
      exact hk'
    · exact hk'
  cases op with
  | setExponent b o l => exact ha _ rfl
  | setModulus b o l =>
    simp only [RSAKey.step, RSAKey.setModulus]
    split
    · rfl
    · exact ha _ rfl
  | setTheKey t => simp [InstallsKey] at h
  | clearKey => rfl

/-- C53. Once a key has a key of the library to cipher with, no setter call and no `clearKey` changes that. -/
theorem C53_sticky (ls : Bool) (k : RSAKey) (ops : List RSAKey.Op) (hn : ops.any InstallsKey = false) (hk : k.theKey ≠ none) :
    (k.run true ls ops).theKey = k.theKey := by
  induction ops generalizing k with
  | nil => rfl
  | cons op ops ih =>
    simp only [List.any_cons, Bool.or_eq_false_iff] at hn
    have e : k.run true ls (op :: ops) = ((k.step true ls op).2).run true ls ops := rfl
    have hs := theKey_step ls k op hn.1 hk
    rw [e, ih _ hn.2 (by rw [hs]; exact hk), hs]

/-- Invariant: no key of the library before the first complete pair. -/
theorem theKey_none (ls : Bool) (size : Int) (ops : List RSAKey.Op) (hn : ops.any InstallsKey = false)
    (hi : ((RSAKey.new true size).run true ls ops).initialized = false) : ((RSAKey.new true size).run true ls ops).theKey = none := by
  have key : ∀ (k : RSAKey), RsaInv k → k.theKey = none → ops.any InstallsKey = false → (k.run true ls ops).initialized = false → (k.run true ls ops).theKey = none := by
    clear hi hn
    induction ops with
    | nil => intro k _ h _ _; exact h
    | cons op ops ih =>
      intro k hr h hn hi
      simp only [List.any_cons, Bool.or_eq_false_iff] at hn
      have e : k.run true ls (op :: ops) = ((k.step true ls op).2).run true ls ops := rfl
      rw [e] at hi ⊢
      obtain ⟨s1, _⟩ := rsa_step ls k op hr
      have hni : (k.step true ls op).2.initialized = false := by
        cases hb : (k.step true ls op).2.initialized with
        | false => rfl
        | true =>
          exfalso
          obtain ⟨q1, _, _, q4, q5⟩ := rsa_run ls (k.step true ls op).2 ops s1
          unfold RsaInv at q1 s1
          rw [hb] at s1
          simp at s1
          rw [q1, q4, q5, s1.1, s1.2] at hi
          simp at hi
      apply ih _ s1 _ hn.2 hi
      have ha : ∀ k' : RSAKey, k'.theKey = none → (k'.afterSet true).2.initialized = false → (k'.afterSet true).2.theKey = none := by
        intro k' h1 h2
        unfold RSAKey.afterSet at h2 ⊢
        split at h2
        · split at h2
          · simp at h2
          · simp at h2
        · exact h1
      cases op with
      | setExponent b o l => exact ha _ h hni
      | setModulus b o l =>
        simp only [RSAKey.step, RSAKey.setModulus] at hni ⊢
        split
        · exact h
        · next hc => rw [if_neg hc] at hni; exact ha _ h hni
      | setTheKey t => simp [InstallsKey] at hn
      | clearKey => exact h
  exact key _ rfl rfl hn hi

/-- C53. The key a public key ciphers with is made from the first complete pair of modulus and exponent (read little-endian,
C50), and stays the same for the rest of the object's life, whatever is set afterwards. -/
theorem C53_first_pair (ls : Bool) (size : Int) (before after : List RSAKey.Op) (op : RSAKey.Op)
    (hn : (before ++ [op] ++ after).any InstallsKey = false)
    (h1 : ((RSAKey.new true size).run true ls before).initialized = false)
    (h2 : ((RSAKey.new true size).run true ls (before ++ [op])).initialized = true) :
    ∃ m e, ((RSAKey.new true size).run true ls (before ++ [op])).modulus = some m ∧ ((RSAKey.new true size).run true ls (before ++ [op])).exponent = some e ∧
      ((RSAKey.new true size).run true ls (before ++ [op] ++ after)).theKey = some (.constructed (arrayToLong m) (arrayToLong e)) := by
  rw [List.any_append, List.any_append] at hn
  simp only [Bool.or_eq_false_iff, List.any_cons, List.any_nil, Bool.or_false] at hn
  obtain ⟨⟨hn1, hn2⟩, hn3⟩ := hn
  have hk := theKey_none ls size before hn1 h1
  obtain ⟨hr, _, hp, _⟩ := rsa_run ls (RSAKey.new true size) before rfl
  rw [rsa_run_append true ls _ (before ++ [op]) after, rsa_run_append true ls _ before [op]] at *
  have hstep : ∀ k : RSAKey, k.run true ls [op] = (k.step true ls op).2 := fun k => rfl
  rw [hstep] at *
  generalize (RSAKey.new true size).run true ls before = k at *
  have hpub : k.isPublic = true := hp
  have ha : ∀ k' : RSAKey, k'.theKey = none → k'.isPublic = true → (k'.initialized = false) → (k'.afterSet true).2.initialized = true →
      ∃ m e, (k'.afterSet true).2.modulus = some m ∧ (k'.afterSet true).2.exponent = some e ∧
        (k'.afterSet true).2.theKey = some (.constructed (arrayToLong m) (arrayToLong e)) := by
    intro k' g1 g2 g3 g4
    unfold RSAKey.afterSet at g4 ⊢
    cases hm : k'.modulus <;> cases he : k'.exponent
    all_goals simp only [hm, he] at g4 ⊢
    · rw [g3] at g4; cases g4
    · rw [g3] at g4; cases g4
    · rw [g3] at g4; cases g4
    · rw [if_pos ⟨g2, g1⟩]
      simp [hm, he]
  have hres : ∃ m e, (k.step true ls op).2.modulus = some m ∧ (k.step true ls op).2.exponent = some e ∧
        (k.step true ls op).2.theKey = some (.constructed (arrayToLong m) (arrayToLong e)) := by
    cases op with
    | setExponent b o l => exact ha _ hk hpub h1 h2
    | setModulus b o l =>
      simp only [RSAKey.step, RSAKey.setModulus] at h2 ⊢
      split
      · next hc => rw [if_pos hc, h1] at h2; cases h2
      · next hc => rw [if_neg hc] at h2; exact ha _ hk hpub h1 h2
    | setTheKey t => simp [InstallsKey] at hn2
    | clearKey => simp only [RSAKey.step, RSAKey.clearKey] at h2; rw [h1] at h2; cases h2
  obtain ⟨m, e, r1, r2, r3⟩ := hres
  refine ⟨m, e, r1, r2, ?_⟩
  rw [C53_sticky ls _ after hn3 (by rw [r3]; simp), r3]

/-- Setting another modulus afterwards is reported by the getter but not used. -/
example : let k := (RSAKey.new true 16).run true true [.setModulus [5, 6] 0 2, .setExponent [3] 0 1, .setModulus [7, 7] 0 2]
    k.modulus = some [7, 7] ∧ k.theKey = some (.constructed (6 * 256 + 5) 3) := ⟨rfl, rfl⟩

/-- C53. A private key given its components one by one counts as initialised but never gets a key to cipher with. -/
theorem C53_private_never (ls : Bool) (size : Int) (ops : List RSAKey.Op) (hn : ops.any InstallsKey = false) :
    ((RSAKey.new false size).run true ls ops).theKey = none := by
  have key : ∀ (k : RSAKey), k.isPublic = false → k.theKey = none → ops.any InstallsKey = false → (k.run true ls ops).theKey = none := by
    clear hn
    induction ops with
    | nil => intro k _ h _; exact h
    | cons op ops ih =>
      intro k hp h hn
      simp only [List.any_cons, Bool.or_eq_false_iff] at hn
      have e : k.run true ls (op :: ops) = ((k.step true ls op).2).run true ls ops := rfl
      rw [e]
      have ha : ∀ k' : RSAKey, k'.isPublic = false → k'.theKey = none → (k'.afterSet true).2.isPublic = false ∧ (k'.afterSet true).2.theKey = none := by
        intro k' g1 g2
        unfold RSAKey.afterSet
        split
        · rw [if_neg (by simp [g1])]; exact ⟨g1, g2⟩
        · exact ⟨g1, g2⟩
      have : (k.step true ls op).2.isPublic = false ∧ (k.step true ls op).2.theKey = none := by
        cases op with
        | setExponent b o l => exact ha _ hp h
        | setModulus b o l =>
          simp only [RSAKey.step, RSAKey.setModulus]
          split
          · exact ⟨hp, h⟩
          · exact ha _ hp h
        | setTheKey t => simp [InstallsKey] at hn
        | clearKey => exact ⟨hp, h⟩
      exact ih _ this.1 this.2 hn.2
  exact key _ rfl rfl hn

/-! ### C54 -/

/-- C54. `buildKey` returns an uninitialised key of the requested length whose type is the requested one - except that a CRT
private key request (6) yields a plain RSA private key (5) - for the RSA and DES types, and None for every other type. -/
theorem C54_buildKey (t n e : Int) :
    (∃ k, buildKey [t, n, e] = .ok (some k) ∧ 1 ≤ t ∧ t ≤ 6 ∧ k.isInitialized = false ∧ k.getSize = n ∧ k.getType = (if t = 6 then 5 else t)) ∨
    (buildKey [t, n, e] = .ok none ∧ ¬ (1 ≤ t ∧ t ≤ 6)) := by
  unfold buildKey
  simp only
  by_cases h4 : t = 4
  · subst h4; exact .inl ⟨_, rfl, by decide, by decide, rfl, rfl, rfl⟩
  by_cases h5 : t = 5
  · subst h5; exact .inl ⟨_, rfl, by decide, by decide, rfl, rfl, rfl⟩
  by_cases h6 : t = 6
  · subst h6; exact .inl ⟨_, rfl, by decide, by decide, rfl, rfl, rfl⟩
  rw [if_neg h4, if_neg h5, if_neg h6]
  by_cases hd : t = 3 ∨ t = 2 ∨ t = 1
  · rw [if_pos hd]
    exact .inl ⟨_, rfl, by omega, by omega, rfl, rfl, by rw [if_neg h6]; rfl⟩
  · rw [if_neg hd]
    exact .inr ⟨rfl, by omega⟩

/-- C54. Other numbers of arguments: the four-argument form is not implemented, the rest are type errors. -/
theorem C54_buildKey_arity (args : List Int) (h : args.length ≠ 3) : buildKey args = .error (if args.length = 4 then .notImplemented else .typeError) := by
  match args, h with
  | [], _ => rfl
  | [_], _ => rfl
  | [_, _], _ => rfl
  | [_, _, _], h => simp at h
  | [_, _, _, _], _ => rfl
  | _ :: _ :: _ :: _ :: _ :: rest, _ => simp [buildKey]

/-- C54. A `KeyPair` can be made for the algorithms RSA (1) and RSA CRT (2) only; it holds uninitialised keys. -/
theorem C54_pair (alg len : Int) :
    ((alg = 1 ∨ alg = 2) ∧ ∃ p, KeyPair.new alg len = .ok p ∧ p.publicKey = RSAKey.new true len ∧ p.privateKey = RSAKey.new false len) ∨
    (¬ (alg = 1 ∨ alg = 2) ∧ KeyPair.new alg len = .error (.crypto 3)) := by
  unfold KeyPair.new
  by_cases h1 : alg = 1
  · rw [if_pos h1]; exact .inl ⟨.inl h1, _, rfl, rfl, rfl⟩
  · rw [if_neg h1]
    by_cases h2 : alg = 2
    · rw [if_pos h2]; exact .inl ⟨.inr h2, _, rfl, rfl, rfl⟩
    · rw [if_neg h2]; exact .inr ⟨by omega, rfl⟩

/-- C54. `genKeyPair` on a fresh pair yields two initialised keys of the pair's length that cipher with the generated key;
a second call is refused with ILLEGAL_VALUE and changes nothing. -/
theorem C54_genKeyPair (ls : Bool) (generate gen2 : Int → TheKey) (alg len : Int) (p : KeyPair) (hp : KeyPair.new alg len = .ok p) :
    ∃ p', p.genKeyPair true ls generate = (.ok (), p') ∧ p'.publicKey.initialized = true ∧ p'.privateKey.initialized = true ∧
      p'.publicKey.size = len ∧ p'.privateKey.size = len ∧
      p'.publicKey.theKey = some (.given (generate len)) ∧ p'.privateKey.theKey = some (.given (generate len)) ∧
      p'.genKeyPair true ls gen2 = (.error (.crypto 1), p') := by
  have hgen : ∀ alg', alg' = 1 ∨ alg' = 2 → p = ⟨some alg', some len, RSAKey.new true len, RSAKey.new false len⟩ →
      p.genKeyPair true ls generate = (.ok (), ⟨some alg', some len, ((RSAKey.new true len).setTheKey true ls (generate len)).2,
        ((RSAKey.new false len).setTheKey true ls (generate len)).2⟩) := by
    intro alg' ha he
    subst he
    unfold KeyPair.genKeyPair
    rw [if_neg (by simp [RSAKey.new]), if_neg (by simp)]
    simp only
    rw [if_neg (by omega)]
    rfl
  unfold KeyPair.new at hp
  have hres : ∃ alg', (alg' = 1 ∨ alg' = 2) ∧ p = ⟨some alg', some len, RSAKey.new true len, RSAKey.new false len⟩ := by
    by_cases h1 : alg = 1
    · rw [if_pos h1] at hp; injection hp with hp; exact ⟨alg, .inl h1, hp.symm⟩
    · rw [if_neg h1] at hp
      by_cases h2 : alg = 2
      · rw [if_pos h2] at hp; injection hp with hp; exact ⟨alg, .inr h2, hp.symm⟩
      · rw [if_neg h2] at hp; cases hp
  obtain ⟨alg', ha, he⟩ := hres
  refine ⟨_, hgen alg' ha he, rfl, rfl, rfl, rfl, rfl, rfl, ?_⟩
  unfold KeyPair.genKeyPair
  rw [if_pos (.inl rfl)]
  rfl

/-- C54. What the getters of a generated pair report: the public key the exponent and modulus, the private key the exponent
and, as modulus, the private exponent; under Python 3 each without its last hexadecimal digit (C50). -/
theorem C54_generated_components (ls : Bool) (len : Int) (t : TheKey) :
    let pub := ((RSAKey.new true len).setTheKey true ls t).2
    let priv := ((RSAKey.new false len).setTheKey true ls t).2
    pub.exponent = some (longToArray ls t.e) ∧ pub.modulus = some (longToArray ls t.n) ∧
    priv.exponent = some (longToArray ls t.e) ∧ priv.modulus = some (longToArray ls t.d) := ⟨rfl, rfl, rfl, rfl⟩

/-- C54. A pair made from two keys requires an RSA public and an RSA private key, and `genKeyPair` on it never generates
anything. -/
theorem C54_ofKeys (pub priv : KeyObj) :
    (∃ p q, pub = .rsa p ∧ priv = .rsa q ∧ p.isPublic = true ∧ q.isPublic = false ∧ ∃ kp, KeyPair.ofKeys pub priv = .ok kp ∧ kp.publicKey = p ∧ kp.privateKey = q ∧
      ∀ ls generate, kp.genKeyPair true ls generate =
        (.error (if p.initialized = true ∨ q.initialized = true then .crypto 1 else .attributeError), kp)) ∨
    KeyPair.ofKeys pub priv = .error (.crypto 1) := by
  unfold KeyPair.ofKeys
  cases pub with
  | des _ => exact .inr rfl
  | rsa p =>
    simp only
    by_cases hp : p.isPublic = true
    · rw [if_neg (by simp [hp])]
      cases priv with
      | des _ => exact .inr rfl
      | rsa q =>
        simp only
        by_cases hq : q.isPublic = true
        · rw [if_pos hq]; exact .inr rfl
        · rw [if_neg hq]
          refine .inl ⟨p, q, rfl, rfl, hp, by simpa using hq, _, rfl, rfl, rfl, ?_⟩
          intro ls generate
          unfold KeyPair.genKeyPair
          by_cases hi : p.initialized = true ∨ q.initialized = true
          · simp only; rw [if_pos hi, if_pos hi]; rfl
          · simp only; rw [if_neg hi, if_neg (by simp), if_neg hi]
    · rw [if_pos (by simpa using hp)]; exact .inr rfl

/-- C54. Without PyCrypto `genKeyPair` raises on every pair, however made, and replaces neither key: ILLEGAL_VALUE when one of them is
initialised, NO_SUCH_ALGORITHM otherwise. -/
theorem C54_without_library (ls : Bool) (generate : Int → TheKey) (p : KeyPair) :
    p.genKeyPair false ls generate =
      (.error (if p.publicKey.initialized = true ∨ p.privateKey.initialized = true then .crypto 1 else .crypto 3), p) := by
  unfold KeyPair.genKeyPair
  by_cases hi : p.publicKey.initialized = true ∨ p.privateKey.initialized = true
  · rw [if_pos hi, if_pos hi]; rfl
  · rw [if_neg hi, if_pos (by simp), if_neg hi]; rfl

example : ∃ p, KeyPair.new 1 512 = .ok p := ⟨_, rfl⟩

end Verif.Props
