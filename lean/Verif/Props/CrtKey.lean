import Verif.Model.CrtKey
/-! C94: CRT private key objects can never be given a key. -/
namespace Verif.Props
open Verif.Py Verif.Model

theorem crt_run_const (k : CrtKey) (ops : List CrtKey.Op) :
    (k.run ops).initialized = k.initialized ∧ (k.run ops).size = k.size ∧ (k.run ops).type = k.type ∧ (k.run ops).concrete = k.concrete := by
  induction ops generalizing k with
  | nil => exact ⟨rfl, rfl, rfl, rfl⟩
  | cons op ops ih =>
    obtain ⟨a, b, c, d⟩ := ih (k.step op).2
    have : (k.step op).2.initialized = k.initialized ∧ (k.step op).2.size = k.size ∧ (k.step op).2.type = k.type ∧
        (k.step op).2.concrete = k.concrete := by
      cases op with
      | setTheKey t =>
        unfold CrtKey.step
        cases hk : k.concrete <;> simp [hk]
      | _ => exact ⟨rfl, rfl, rfl, rfl⟩
    exact ⟨a.trans this.1, b.trans this.2.1, c.trans this.2.2.1, d.trans this.2.2.2⟩

/-- C94. Whatever is called on a CRT private key object, it never becomes initialised; its size stays the one it was made with; the
concrete class reports the type of a plain RSA private key (5), the abstract one the CRT type (6). -/
theorem C94_never_initialised (concrete : Bool) (size : Int) (ops : List CrtKey.Op) :
    ((CrtKey.new concrete size).run ops).isInitialized = false ∧ ((CrtKey.new concrete size).run ops).getSize = size ∧
    ((CrtKey.new concrete size).run ops).getType = if concrete then 5 else 6 := by
  obtain ⟨a, b, c, _⟩ := crt_run_const (CrtKey.new concrete size) ops
  exact ⟨a, b, c⟩

/-- C94. Every call that would read or set a part of the key raises: TypeError for the ten accessors; NameError for `setTheKey` of the
concrete class, which has then kept a reference to the key, AttributeError for the abstract one. None changes another thing. -/
theorem C94_every_accessor_raises (concrete : Bool) (size : Int) (ops : List CrtKey.Op) :
    let k := (CrtKey.new concrete size).run ops
    (∀ c b o, k.step (.get c b o) = (.error .typeError, k)) ∧ (∀ c b o n, k.step (.put c b o n) = (.error .typeError, k)) ∧
    (∀ t, concrete = true → k.step (.setTheKey t) = (.error .nameError, { k with theKey := some t })) ∧
    (∀ t, concrete = false → k.step (.setTheKey t) = (.error .attributeError, k)) := by
  intro k
  have hc : k.concrete = concrete := (crt_run_const (CrtKey.new concrete size) ops).2.2.2
  refine ⟨fun _ _ _ => rfl, fun _ _ _ _ => rfl, fun t h => ?_, fun t h => ?_⟩
  · simp [CrtKey.step, hc, h]
  · simp [CrtKey.step, hc, h]

/-- C94. So no cipher accepts such a key, whatever the mode: `Cipher.init` raises CryptoException(UNINITIALIZED_KEY). A pair made from a
public key and such a key cannot be generated: ILLEGAL_VALUE when the public key is initialised, otherwise NO_SUCH_ALGORITHM without
PyCrypto and AttributeError with it. -/
theorem C94_unusable (concrete : Bool) (size mode : Int) (ops : List CrtKey.Op) (pycrypto pubInit : Bool) :
    let k := (CrtKey.new concrete size).run ops
    cipherInitChecks k.isInitialized mode = some (.crypto 2) ∧
    genOfKeys pycrypto pubInit k.isInitialized =
      if pubInit then .crypto 1 else if pycrypto then .attributeError else .crypto 3 := by
  intro k
  have h : k.isInitialized = false := (C94_never_initialised concrete size ops).1
  rw [h]
  cases pubInit <;> cases pycrypto <;> exact ⟨rfl, rfl⟩

example : ((CrtKey.new true 1024).run [.setTheKey ⟨33, 3, 7⟩, .put .P [1, 2] 0 2, .clearKey]) = ⟨true, false, 1024, 5, some ⟨33, 3, 7⟩⟩ := by decide

end Verif.Props
