import Verif.Lemmas.APDU
import Verif.Spec.ISO7816
/-! The constructor on ISO 7816-4 encodings. -/
namespace Verif.Model
open Verif.Py Verif.Spec
namespace APDU

theorem u1_spells {b : Int} {n : Nat} (h : Spells b n) : u1 b = n := by
  obtain ⟨h1, h2⟩ := h
  rw [u1_eq]; omega

theorem spells_zero {b : Int} {n : Nat} (h : Spells b n) : b = 0 ↔ n = 0 := by
  obtain ⟨h1, h2⟩ := h
  constructor <;> intro h <;> omega

theorem spells_u1 {b : Int} (h1 : -128 ≤ b) (h2 : b ≤ 255) : Spells b (u1 b).toNat := by
  rw [u1_eq]
  refine ⟨by omega, by omega⟩

theorem le1_spells {b : Int} {n : Nat} (h1 : 1 ≤ n) (h2 : n ≤ 256) (h : Spells b (n % 256)) : le1 b = n := by
  unfold le1
  have := spells_zero h
  have := u1_spells h
  split <;> omega

/-- Number of Le bytes the code assumes for a short command. -/
def leBytes (ne : Option Nat) : Int := if ne = none then 0 else 1

/-- ISO case number. -/
def caseOf (data : List Int) (ne : Option Nat) : Int :=
  if data = [] then (if ne = none then 1 else 2) else (if ne = none then 3 else 4)

theorem short_built {hdr data : List Int} {ne : Option Nat} {bytes : List Int}
    (h : ShortCmd hdr data ne bytes) :
    init bytes = .ok (built bytes (if data = [] ∧ ne = none then 4 else 5) (caseOf data ne) data.length
      (ne.map fun n : Nat => (n : Int)) (leBytes ne) 5 false) := by
  obtain ⟨hh, lcf, lef, hlc, hle, rfl⟩ := h
  match hdr, hh with
  | [a, b, c, d], _ =>
    rcases hlc with ⟨rfl, rfl⟩ | ⟨hd, hdl, lc, rfl, hlc⟩
    · rcases hle with ⟨rfl, rfl⟩ | ⟨n, rfl, h1, h2, le, rfl, hle⟩
      · rw [init_four _ rfl]; rfl
      · rw [init_A _ rfl]
        simp only [List.cons_append, List.nil_append, List.getElem_cons_succ, List.getElem_cons_zero]
        rw [le1_spells h1 h2 hle]
        rfl
    · have hpos : 0 < data.length := List.length_pos_iff.2 hd
      have hne : lc ≠ 0 := fun e => by have := (spells_zero hlc).1 e; omega
      have hu := u1_spells hlc
      rcases hle with ⟨rfl, rfl⟩ | ⟨n, rfl, h1, h2, le, rfl, hle⟩
      · have := init_C ([a, b, c, d] ++ ([lc] ++ (data ++ []))) (by simp; omega) (by simpa using hne)
          (by simp [-u1_eq, hu]; omega)
        rw [this]
        simp [-u1_eq, hu, hd, caseOf, leBytes]
      · have := init_D ([a, b, c, d] ++ ([lc] ++ (data ++ [le]))) (by simp) (by simpa using hne)
          (by have := hlc.1; have := hlc.2; simp; omega) (by simp [-u1_eq, hu]; omega)
        rw [this]
        have e1 : ([a, b, c, d] ++ ([lc] ++ (data ++ [le])))[([a, b, c, d] ++ ([lc] ++ (data ++ [le]))).length - 1]'(by simp) = le := by
          have : [a, b, c, d] ++ ([lc] ++ (data ++ [le])) = ([a, b, c, d] ++ [lc] ++ data) ++ [le] := by simp
          simp only [this]
          simp
        have e2 : ((([a, b, c, d] ++ ([lc] ++ (data ++ [le]))).length : Nat) : Int) = 6 + (data.length : Int) := by
          simp; omega
        have e3 : ([a, b, c, d] ++ ([lc] ++ (data ++ [le])))[4]'(by simp) = lc := by simp
        rw [e1, e3, hu, e2]
        simp [hd, caseOf, leBytes, le1_spells h1 h2 hle]

/-- Does the code read the two Le bytes for `n` right? -/
def ExtLeOk (n : Nat) : Prop := n = 65536 ∨ n % 256 ≠ 0

theorem le2_ok {h l : Int} {n : Nat} (h1 : 1 ≤ n) (h2 : n ≤ 65536) (hs : Spells2 h l (n % 65536))
    (hok : ExtLeOk n) : le2 h l = ((n : Int), 2) := by
  obtain ⟨hn, hh, hl⟩ := hs
  have zh := spells_zero hh
  have zl := spells_zero hl
  have uh := u1_spells hh
  have ul := u1_spells hl
  unfold le2
  unfold ExtLeOk at hok
  rcases hok with rfl | hok
  · have : l = 0 := by rw [zl]
    have : h = 0 := by rw [zh]
    simp [*]
  · have e : n % 65536 % 256 = n % 256 := by omega
    have : ¬ l = 0 := by rw [zl]; omega
    rw [if_neg this, uh, ul]
    congr 1
    omega

theorem le2_bad {h l : Int} {n : Nat} (h1 : 1 ≤ n) (h2 : n ≤ 65536) (hs : Spells2 h l (n % 65536))
    (hok : ¬ ExtLeOk n) : le2 h l = (256, 1) := by
  obtain ⟨hn, hh, hl⟩ := hs
  have zh := spells_zero hh
  have zl := spells_zero hl
  unfold le2
  unfold ExtLeOk at hok
  have hl0 : l = 0 := by rw [zl]; omega
  have hh0 : ¬ h = 0 := by rw [zh]; omega
  rw [if_pos hl0, if_neg hh0]

theorem ext2_built {hdr : List Int} {n : Nat} {bytes : List Int} (h : Ext2 hdr n bytes) :
    (ExtLeOk n ∧ init bytes = .ok (built bytes 5 2 0 (some n) 2 5 false)) ∨
    (¬ ExtLeOk n ∧ init bytes = .ok (built bytes 5 2 0 (some 256) 1 5 false)) := by
  obtain ⟨hh, h1, h2, hi, lo, hs, rfl⟩ := h
  match hdr, hh with
  | [a, b, c, d], _ =>
    have := init_B ([a, b, c, d] ++ [0, hi, lo]) rfl rfl
    rw [this]
    have e5 : ([a, b, c, d] ++ [0, hi, lo])[5]'(by simp) = hi := by simp
    have e6 : ([a, b, c, d] ++ [0, hi, lo])[6]'(by simp) = lo := by simp
    rw [e5, e6]
    by_cases hok : ExtLeOk n
    · left; rw [le2_ok h1 h2 hs hok]; exact ⟨hok, rfl⟩
    · right; rw [le2_bad h1 h2 hs hok]; exact ⟨hok, rfl⟩

theorem spells2_val {h l : Int} {n : Nat} (hs : Spells2 h l n) : u1 h * 256 + u1 l = n := by
  obtain ⟨hn, hh, hl⟩ := hs
  rw [u1_spells hh, u1_spells hl]
  omega

theorem le2_snd (h l : Int) : (le2 h l).2 = 1 ∨ (le2 h l).2 = 2 := by
  unfold le2; split
  · split <;> simp
  · simp

theorem ext3_built {hdr data : List Int} {bytes : List Int} (h : Ext3 hdr data bytes) :
    ∃ ne lel, init bytes = .ok (built bytes 7 4 data.length ne lel 7 true) := by
  obtain ⟨hh, hd, hdl, hi, lo, hs, rfl⟩ := h
  match hdr, hh with
  | [a, b, c, d], _ =>
    have hpos : 0 < data.length := List.length_pos_iff.2 hd
    have hv := spells2_val hs
    have e5 : ([a, b, c, d] ++ ([0, hi, lo] ++ data))[5]'(by simp) = hi := by simp
    have e6 : ([a, b, c, d] ++ ([0, hi, lo] ++ data))[6]'(by simp) = lo := by simp
    have := init_G ([a, b, c, d] ++ ([0, hi, lo] ++ data)) (by simp; omega) (by simp)
      (by rw [e5, e6, hv]; simp; omega)
    rw [e5, e6, hv] at this
    rw [this]
    have := le2_snd (([a, b, c, d] ++ ([0, hi, lo] ++ data))[([a, b, c, d] ++ ([0, hi, lo] ++ data)).length - 2]'(by simp)) (([a, b, c, d] ++ ([0, hi, lo] ++ data))[([a, b, c, d] ++ ([0, hi, lo] ++ data)).length - 1]'(by simp))
    generalize hg : le2 (([a, b, c, d] ++ ([0, hi, lo] ++ data))[([a, b, c, d] ++ ([0, hi, lo] ++ data)).length - 2]'(by simp)) (([a, b, c, d] ++ ([0, hi, lo] ++ data))[([a, b, c, d] ++ ([0, hi, lo] ++ data)).length - 1]'(by simp)) = l at this
    refine ⟨some l.1, l.2, ?_⟩
    simp only
    congr 2
    rw [decide_eq_true_iff]
    simp only [List.length_append, List.length_cons, List.length_nil]
    omega

theorem ext4_built {hdr data : List Int} {n : Nat} {bytes : List Int} (h : Ext4 hdr data n bytes) :
    (ExtLeOk n ∧ init bytes = .ok (built bytes 7 4 data.length (some n) 2 7 false)) ∨
    (¬ ExtLeOk n ∧ init bytes = .ok (built bytes 7 4 data.length (some 256) 1 7 true)) := by
  obtain ⟨hh, hd, hdl, h1, h2, hi, lo, hi', lo', hs, hs', rfl⟩ := h
  match hdr, hh with
  | [a, b, c, d], _ =>
    have hpos : 0 < data.length := List.length_pos_iff.2 hd
    have hv := spells2_val hs
    have e5 : ([a, b, c, d] ++ ([0, hi, lo] ++ (data ++ [hi', lo'])))[5]'(by simp) = hi := by simp
    have e6 : ([a, b, c, d] ++ ([0, hi, lo] ++ (data ++ [hi', lo'])))[6]'(by simp) = lo := by simp
    have hre : [a, b, c, d] ++ ([0, hi, lo] ++ (data ++ [hi', lo'])) =
      ([a, b, c, d] ++ [0, hi, lo] ++ data) ++ [hi', lo'] := by simp
    have el : ([a, b, c, d] ++ ([0, hi, lo] ++ (data ++ [hi', lo'])))[([a, b, c, d] ++ ([0, hi, lo] ++ (data ++ [hi', lo']))).length - 1]'(by simp) = lo' := by
      simp only [hre]
      rw [List.getElem_append_right (by simp)]
      simp
    have ep : ([a, b, c, d] ++ ([0, hi, lo] ++ (data ++ [hi', lo'])))[([a, b, c, d] ++ ([0, hi, lo] ++ (data ++ [hi', lo']))).length - 2]'(by simp) = hi' := by
      simp only [hre]
      rw [List.getElem_append_right (by simp)]
      simp
    have := init_G ([a, b, c, d] ++ ([0, hi, lo] ++ (data ++ [hi', lo']))) (by simp) (by simp)
      (by rw [e5, e6, hv]; simp; omega)
    rw [e5, e6, hv, el, ep] at this
    rw [this]
    by_cases hok : ExtLeOk n
    · left
      refine ⟨hok, ?_⟩
      rw [le2_ok h1 h2 hs' hok]
      simp only
      congr 2
      rw [decide_eq_false_iff_not]
      simp only [List.length_append, List.length_cons, List.length_nil]
      omega
    · right
      refine ⟨hok, ?_⟩
      rw [le2_bad h1 h2 hs' hok]
      simp only
      congr 2
      rw [decide_eq_true_iff]
      simp only [List.length_append, List.length_cons, List.length_nil]
      omega

end APDU
end Verif.Model
