import Verif.Lemmas.APDUEnc
import Verif.Lemmas.Copy
/-! Lemmas about the receiving calls of an APDU. -/
namespace Verif.Model
open Verif.Py Verif.Spec
namespace APDU

theorem built_buffer_length (bytes : List Int) (k : Nat) (ty nc : Int) (ne : Option Int) (lel cd : Int)
    (br : Bool) (hk : k ≤ bytes.length) (h7 : k ≤ 7) :
    (built bytes k ty nc ne lel cd br).buffer.length = 257 := by
  simp [built, zeros_length]; omega

/-- The body shared by the two receiving calls. -/
def recv (a : APDU) (d : Int) : Res APDU Int :=
  let t := a.toBeProcessed
  match copyRange a.raw a.offsetincoming a.buffer d 0 (rangeLen t) with
  | (.error e, b) => (.error e, { a with buffer := b })
  | (.ok (), b) =>
    let off := a.offsetincoming + t
    let st := if off = (a.raw.length : Int) - a.lelength then STATE_FULL_INCOMING
              else STATE_PARTIAL_INCOMING
    (.ok t, { a with buffer := b, offsetincoming := off, state := st })

theorem setIncoming_recv (a : APDU) : a.setIncomingAndReceive =
    if a.state ≠ STATE_INITIAL then (.error ILLEGAL_USE, a)
    else if a.broken then (.error SW_WRONG_LENGTH, a) else a.recv a.offsetincoming := rfl

theorem receiveBytes_recv (a : APDU) (d : Int) : a.receiveBytes d =
    if a.state < STATE_PARTIAL_INCOMING ∨ a.state ≥ STATE_OUTGOING then (.error ILLEGAL_USE, a)
    else a.recv d := rfl

/-- Number of bytes the next receiving call delivers. -/
def blockLen (a : APDU) : Nat := a.toBeProcessed.toNat

theorem recv_ok (a : APDU) (o d : Nat) (ho : a.offsetincoming = o)
    (hs : a.blockLen = 0 ∨ o + a.blockLen ≤ a.raw.length) (hb : a.blockLen = 0 ∨ d + a.blockLen ≤ a.buffer.length) :
    a.recv d = (.ok a.toBeProcessed,
      { a with
        buffer := splice a.buffer d ((a.raw.drop o).take a.blockLen),
        offsetincoming := o + a.toBeProcessed,
        state := if (o : Int) + a.toBeProcessed = (a.raw.length : Int) - a.lelength then STATE_FULL_INCOMING else STATE_PARTIAL_INCOMING }) := by
  unfold recv
  have e : rangeLen a.toBeProcessed = a.blockLen := rfl
  simp only [e]
  rw [ho, copyRange_eq]
  have : min a.blockLen (min (a.raw.length - o) (a.buffer.length - d)) = a.blockLen := by omega
  simp only [Nat.add_zero, this, outcome, if_true]

/-- A receiving call fails only with an IndexError, changing at most the buffer's cells, or advances. -/
theorem recv_cases (a : APDU) (d : Int) :
    (∃ b, a.recv d = (.error .indexError, { a with buffer := b }) ∧ b.length = a.buffer.length) ∨
    (∃ b, a.recv d = (.ok a.toBeProcessed, { a with buffer := b, offsetincoming := a.offsetincoming + a.toBeProcessed, state := if a.offsetincoming + a.toBeProcessed = (a.raw.length : Int) - a.lelength then STATE_FULL_INCOMING else STATE_PARTIAL_INCOMING }) ∧ b.length = a.buffer.length) := by
  unfold recv
  have hl : ∀ (src dst : List Int) (so d : Int) (i n : Nat),
      (copyRange src so dst d i n).2.length = dst.length := by
    intro src dst so d i n
    induction n generalizing dst i with
    | zero => rfl
    | succ n ih =>
      unfold copyRange
      split
      · rfl
      · split
        · rfl
        · next h => rw [ih, set_length h]
  have he := copyRange_err a.raw a.buffer a.offsetincoming d 0 (rangeLen a.toBeProcessed)
  have hl := hl a.raw a.buffer a.offsetincoming d 0 (rangeLen a.toBeProcessed)
  generalize hr : copyRange a.raw a.offsetincoming a.buffer d 0 (rangeLen a.toBeProcessed) = r at he hl
  obtain ⟨r1, b⟩ := r
  rcases he with h | h <;> simp only at h <;> subst h
  · right; exact ⟨b, by simp only [hr], hl⟩
  · left; exact ⟨b, by simp only [hr], hl⟩

/-- The first receiving call on a constructed, well-formed APDU never fails. -/
theorem setIncoming_built (bytes : List Int) (k : Nat) (ty nc : Int) (ne : Option Int) (lel cd : Int)
    (hk : k ≤ bytes.length) (h7 : k ≤ 7) (hl : 0 ≤ lel) :
    (setIncomingAndReceive (built bytes k ty nc ne lel cd false)).1 =
      .ok (min 128 ((bytes.length : Int) - k - lel)) := by
  rw [setIncoming_recv]
  have ht : (built bytes k ty nc ne lel cd false).toBeProcessed = min 128 ((bytes.length : Int) - k - lel) := rfl
  have hbl := built_buffer_length bytes k ty nc ne lel cd false hk h7
  have hr : (built bytes k ty nc ne lel cd false).raw = bytes := rfl
  rw [if_neg (show ¬ ((built bytes k ty nc ne lel cd false).state ≠ STATE_INITIAL) by simp [built])]
  rw [if_neg (by simp [built])]
  have := recv_ok (built bytes k ty nc ne lel cd false) k k rfl
    (by rw [hr]; unfold blockLen; rw [ht]; omega) (by rw [hbl]; unfold blockLen; rw [ht]; omega)
  have e : (built bytes k ty nc ne lel cd false).offsetincoming = (k : Int) := rfl
  rw [e, this, ht]

theorem setIncoming_broken (bytes : List Int) (k : Nat) (ty nc : Int) (ne : Option Int) (lel cd : Int) :
    setIncomingAndReceive (built bytes k ty nc ne lel cd true) =
      (.error SW_WRONG_LENGTH, built bytes k ty nc ne lel cd true) := by
  rw [setIncoming_recv]
  rw [if_neg (by simp [built]), if_pos (by simp [built])]

end APDU
end Verif.Model
