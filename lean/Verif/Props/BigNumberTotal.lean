import Verif.Props.BigNumberHist
import Verif.Props.CipherHist
/-! C90: BigNumber on all arguments: every history, every exception. -/
namespace Verif.Props
open Verif.Py Verif.Model Verif.Spec

/-- Specification: the number of the cells `o, o+1, …, o+n-1` before the first index that names no cell. -/
def readable (len : Nat) (o : Int) (n : Nat) : Nat := if o < -(len : Int) then 0 else min n ((len : Int) - o).toNat

/-- Specification: the value of a row of cells: base 256, or base 100 with the two halves of the byte as decimal digits (not checked to be below 10). -/
def numValue (fmt : Int) (cells : List Int) : Int :=
  if fmt = BCD then cells.foldl (fun a b => a * 100 + ((valueOf b / 16 * 10 + valueOf b % 16 : Nat) : Int)) 0
  else cells.foldl (fun a b => a * 256 + (valueOf b : Int)) 0

/-- Specification: what the arguments of a call say: an exception, or a number. -/
def argument (c : NumCall) : Except Err Int :=
  if c.len = 0 then .error .arithmetic
  else match c.arr with
  | none => .error .nullPointer
  | some arr =>
    if c.fmt ≠ BCD ∧ c.fmt ≠ HEX then .error .arithmetic
    else if 0 < c.len ∧ ¬ Reachable arr.length c.off c.len.toNat then .error .indexError
    else .ok (numValue c.fmt (cellsFrom arr c.off c.len.toNat))

/-- Specification: the number left behind by an `init` that runs over the end of the array: the cells it could read, and a zero. -/
def overrun (c : NumCall) : Option Int :=
  c.arr.map fun arr => numValue c.fmt (cellsFrom arr c.off (readable arr.length c.off c.len.toNat) ++ [0])

/-- Specification: one call on a number of which only the value matters (`none` before the first `init`). -/
def numSpec (v : Option Int) (c : NumCall) : Except Err Unit × Option Int :=
  match c.kind, argument c, v with
  | .init, .ok n, _ => (.ok (), some n)
  | .init, .error .indexError, _ => (.error .indexError, overrun c)
  | _, .error e, v => (.error e, v)
  | _, .ok _, none => (.error .typeError, none)
  | .add, .ok n, some v => (.ok (), some (v + n))
  | .subtract, .ok n, some v => (.ok (), some (v - n))
  | .multiply, .ok n, some v => (.ok (), some (v * n))

/-- Specification: a history of calls. -/
def numSpecRun (v : Option Int) : List NumCall → List (Except Err Unit) × Option Int
  | [] => ([], v)
  | c :: cs => ((numSpec v c).1 :: (numSpecRun (numSpec v c).2 cs).1, (numSpecRun (numSpec v c).2 cs).2)

theorem readable_succ (len : Nat) (o : Int) (n : Nat) (h : -(len : Int) ≤ o ∧ o < len) : readable len o (n + 1) = readable len (o + 1) n + 1 := by
  unfold readable
  rw [if_neg (by omega), if_neg (by omega)]
  omega

theorem readable_zero (len : Nat) (o : Int) (n : Nat) (h : ¬ (-(len : Int) ≤ o ∧ o < len)) : readable len o n = 0 := by
  unfold readable
  split <;> omega

theorem readable_all (len : Nat) (o : Int) (n : Nat) (h : 0 < n) : readable len o n = n ↔ Reachable len o n := by
  unfold readable Reachable
  split <;> omega

/-- The loop of `init`, from index `i`, on any arguments. -/
theorem initLoop_total (base : Int) (conv : Int → Int) (l : List Int) (o acc : Int) (i n : Nat) :
    BigNumber.initLoop base conv l o acc i n =
      if readable l.length (o + i) n = n then (.ok (), (cellsFrom l (o + i) n).foldl (fun a b => a * base + conv b) acc)
      else (.error .indexError, (cellsFrom l (o + i) (readable l.length (o + i) n)).foldl (fun a b => a * base + conv b) acc * base) := by
  induction n generalizing acc i with
  | zero => simp [BigNumber.initLoop, readable, cellsFrom]
  | succ n ih =>
    unfold BigNumber.initLoop
    by_cases h : -(l.length : Int) ≤ o + i ∧ o + i < l.length
    · obtain ⟨p, hp⟩ := names_of_reach l.length (o + i) h
      rw [get_names _ _ _ hp]
      simp only
      rw [ih, readable_succ _ _ _ h, cellAt_names l _ p hp, show o + ((i + 1 : Nat) : Int) = o + (i : Int) + 1 by push_cast; omega]
      by_cases hr : readable l.length (o + i + 1) n = n
      · rw [if_pos hr, if_pos (by omega), cellsFrom_succ]; rfl
      · rw [if_neg hr, if_neg (by omega), cellsFrom_succ]; rfl
    · rw [readable_zero _ _ _ h, if_neg (by omega)]
      have : get l (o + i) = .error .indexError := get_unnamed l _ (by omega)
      rw [this]
      simp [cellsFrom]

theorem fromHex_value (b : Int) : fromHex b = (valueOf b : Int) := by
  simp only [fromHex, iand_ff, valueOf]
  omega

theorem fromBcd_value (b : Int) : fromBcd b = ((valueOf b / 16 * 10 + valueOf b % 16 : Nat) : Int) := by
  simp only [fromBcd, iand_ff, iand_0f, shr, valueOf]
  omega

/-- `init` with any arguments. -/
theorem init_total (x : BigNumber) (c : NumCall) :
    x.init c.arr c.off c.len c.fmt = match argument c with
      | .ok n => (.ok (), { x with value := some n })
      | .error .indexError => (.error .indexError, { x with value := overrun c })
      | .error e => (.error e, x) := by
  unfold BigNumber.init argument overrun
  by_cases h0 : c.len = 0
  · rw [if_pos h0, if_pos h0]
  · rw [if_neg h0, if_neg h0]
    cases c.arr with
    | none => rfl
    | some arr =>
      simp only
      have hloop : ∀ base conv, BigNumber.initLoop base conv arr c.off 0 0 (rangeLen c.len) =
          if 0 < c.len ∧ ¬ Reachable arr.length c.off c.len.toNat then
            (.error .indexError, (cellsFrom arr c.off (readable arr.length c.off c.len.toNat)).foldl (fun a b => a * base + conv b) 0 * base)
          else (.ok (), (cellsFrom arr c.off c.len.toNat).foldl (fun a b => a * base + conv b) 0) := by
        intro base conv
        rw [initLoop_total]
        simp only [rangeLen, Int.natCast_zero, Int.add_zero]
        by_cases hp : 0 < c.len
        · have := readable_all arr.length c.off c.len.toNat (by omega)
          by_cases hr : Reachable arr.length c.off c.len.toNat
          · rw [if_pos (this.2 hr), if_neg (fun h => h.2 hr)]
          · rw [if_neg (fun h => hr (this.1 h)), if_pos ⟨hp, hr⟩]
        · have : c.len.toNat = 0 := by omega
          rw [this, if_pos (by unfold readable; split <;> omega), if_neg (fun h => hp h.1)]
      by_cases h1 : c.fmt = BCD
      · rw [if_pos (show c.fmt = BigNumber.FORMAT_BCD from h1), if_neg (fun h => h.1 h1), hloop 100 fromBcd]
        have hn : ∀ l, numValue c.fmt l = l.foldl (fun a b => a * 100 + fromBcd b) 0 := by
          intro l
          unfold numValue
          rw [if_pos h1]
          simp only [fromBcd_value]
        by_cases hr : 0 < c.len ∧ ¬ Reachable arr.length c.off c.len.toNat
        · rw [if_pos hr, if_pos hr]
          simp only [Option.map_some, hn, List.foldl_append, List.foldl_cons, List.foldl_nil]
          rw [show fromBcd 0 = 0 by decide, Int.add_zero]
        · rw [if_neg hr, if_neg hr]
          simp only [hn]
      · rw [if_neg (show ¬ c.fmt = BigNumber.FORMAT_BCD from h1)]
        by_cases h2 : c.fmt = HEX
        · rw [if_pos (show c.fmt = BigNumber.FORMAT_HEX from h2), if_neg (fun h => h.2 h2), hloop (2 ^ 8) fromHex]
          have hn : ∀ l, numValue c.fmt l = l.foldl (fun a b => a * (2 ^ 8) + fromHex b) 0 := by
            intro l
            unfold numValue
            rw [if_neg h1]
            simp only [fromHex_value]
            rfl
          by_cases hr : 0 < c.len ∧ ¬ Reachable arr.length c.off c.len.toNat
          · rw [if_pos hr, if_pos hr]
            simp only [Option.map_some, hn, List.foldl_append, List.foldl_cons, List.foldl_nil]
            rw [show fromHex 0 = 0 by decide, Int.add_zero]
          · rw [if_neg hr, if_neg hr]
            simp only [hn]
        · rw [if_neg (show ¬ c.fmt = BigNumber.FORMAT_HEX from h2), if_pos ⟨h1, h2⟩]

theorem operand_total (c : NumCall) : BigNumber.operand c.arr c.off c.len c.fmt = argument c := by
  unfold BigNumber.operand
  rw [init_total]
  cases h : argument c with
  | ok n => rfl
  | error e => cases e <;> rfl

theorem numStep_total (m : Option Int) (v : Option Int) (c : NumCall) : numStep ⟨m, v⟩ c = ((numSpec v c).1, ⟨m, (numSpec v c).2⟩) := by
  obtain ⟨kind, arr, off, len, fmt⟩ := c
  have hop := operand_total ⟨kind, arr, off, len, fmt⟩
  simp only at hop
  cases kind with
  | init =>
    have := init_total ⟨m, v⟩ ⟨.init, arr, off, len, fmt⟩
    simp only at this
    simp only [numStep, this, numSpec]
    cases h : argument ⟨.init, arr, off, len, fmt⟩ with
    | ok n => rfl
    | error e => cases e <;> rfl
  | add =>
    simp only [numStep, BigNumber.add, hop, numSpec]
    cases h : argument ⟨.add, arr, off, len, fmt⟩ with
    | ok n => cases v <;> rfl
    | error e => rfl
  | subtract =>
    simp only [numStep, BigNumber.subtract, hop, numSpec]
    cases h : argument ⟨.subtract, arr, off, len, fmt⟩ with
    | ok n => cases v <;> rfl
    | error e => rfl
  | multiply =>
    simp only [numStep, BigNumber.multiply, hop, numSpec]
    cases h : argument ⟨.multiply, arr, off, len, fmt⟩ with
    | ok n => cases v <;> rfl
    | error e => rfl

/-- C90. Every history of calls, with any arguments: outcomes and value are those of the specification; the maximum is kept and plays no part. -/
theorem C90_total (m : Option Int) (v : Option Int) (cs : List NumCall) :
    numRun ⟨m, v⟩ cs = ((numSpecRun v cs).1, ⟨m, (numSpecRun v cs).2⟩) := by
  induction cs generalizing v with
  | nil => rfl
  | cons c cs ih => simp only [numRun, numStep_total, ih, numSpecRun]

/-- Specification: the exception of `toBytes` on a number of value `v`. -/
def bytesVerdict (v : Option Int) (fmt n : Int) (len : Nat) (o : Int) : Option Err :=
  if fmt ≠ BCD ∧ fmt ≠ HEX then some .arithmetic
  else match v with
  | none => some .typeError
  | some v =>
    if n < 0 ∨ ((if fmt = BCD then 100 else 256) ^ n.toNat : Nat) ≤ v then some .arithmetic
    else if 0 < n ∧ ¬ Reachable len o n.toNat then some .arrayIndexOutOfBounds
    else none

theorem valueOf_toHex (d : Nat) (h : d < 256) : valueOf (toHex d) = d := by
  have := (BigNumber.toHex_spells d h).1
  unfold Spells at this
  unfold valueOf
  omega

theorem valueOf_toBcd (d : Nat) (h : d < 100) : valueOf (toBcd d) = d / 10 * 16 + d % 10 := by
  have := (BigNumber.toBcd_spells d h).1
  unfold Spells at this
  unfold valueOf
  omega

theorem hexFold (l : List Nat) (h : ∀ d ∈ l, d < 256) (acc : Nat) :
    (l.map fun d : Nat => toHex (d : Int)).foldl (fun a b => a * 256 + (valueOf b : Int)) (acc : Int) = ((l.foldl (fun a d => a * 256 + d) acc : Nat) : Int) := by
  induction l generalizing acc with
  | nil => rfl
  | cons d l ih =>
    simp only [List.map_cons, List.foldl_cons]
    rw [valueOf_toHex d (h d (by simp)), show (acc : Int) * 256 + (d : Int) = ((acc * 256 + d : Nat) : Int) by omega]
    exact ih (fun x hx => h x (by simp [hx])) _

theorem bcdFold (l : List Nat) (h : ∀ d ∈ l, d < 100) (acc : Nat) :
    (l.map fun d : Nat => toBcd (d : Int)).foldl (fun a b => a * 100 + ((valueOf b / 16 * 10 + valueOf b % 16 : Nat) : Int)) (acc : Int) =
      ((l.foldl (fun a d => a * 100 + d) acc : Nat) : Int) := by
  induction l generalizing acc with
  | nil => rfl
  | cons d l ih =>
    have hd := h d (by simp)
    simp only [List.map_cons, List.foldl_cons]
    rw [valueOf_toBcd d hd, show (d / 10 * 16 + d % 10) / 16 * 10 + (d / 10 * 16 + d % 10) % 16 = d by omega,
      show (acc : Int) * 100 + (d : Int) = ((acc * 100 + d : Nat) : Int) by omega]
    exact ih (fun x hx => h x (by simp [hx])) _

/-- The bytes of `v` on `n` places. -/
theorem outCells (fmt : Int) (v n : Nat) (hv : v < (if fmt = BCD then 100 else 256) ^ n) :
    ∃ cells : List Int, (if fmt = BCD then BigNumber.outBytes 100 toBcd v n else BigNumber.outBytes 256 toHex v n) = cells ∧
      cells.length = n ∧ Bytes cells ∧ numValue fmt cells = v ∧ (fmt = BCD → ∀ b ∈ cells, valueOf b / 16 < 10 ∧ valueOf b % 16 < 10) := by
  refine ⟨_, rfl, ?_⟩
  by_cases h : fmt = BCD
  · rw [if_pos h] at hv ⊢
    obtain ⟨hlen, hpos, hlt⟩ := BigNumber.outDigits_props 100 (by omega) v n hv
    rw [BigNumber.outBytes_eq 100 toBcd (by decide) v n]
    refine ⟨by simpa using hlen, ?_, ?_, ?_⟩
    · intro b hb
      obtain ⟨d, hd, rfl⟩ := List.mem_map.1 hb
      exact (BigNumber.toBcd_spells d (hlt d hd)).2
    · unfold numValue
      rw [if_pos h]
      exact (bcdFold _ hlt 0).trans (congrArg _ hpos)
    · intro _ b hb
      obtain ⟨d, hd, rfl⟩ := List.mem_map.1 hb
      have := hlt d hd
      rw [valueOf_toBcd d this]
      omega
  · rw [if_neg h] at hv ⊢
    obtain ⟨hlen, hpos, hlt⟩ := BigNumber.outDigits_props 256 (by omega) v n hv
    rw [BigNumber.outBytes_eq 256 toHex (by decide) v n]
    refine ⟨by simpa using hlen, ?_, ?_, fun hb => absurd hb h⟩
    · intro b hb
      obtain ⟨d, hd, rfl⟩ := List.mem_map.1 hb
      exact (BigNumber.toHex_spells d (hlt d hd)).2
    · unfold numValue
      rw [if_neg h]
      exact (hexFold _ hlt 0).trans (congrArg _ hpos)

/-- A number below zero is written like zero. -/
theorem toBytes_negative (m : Option Int) (v : Int) (h : v < 0) (buf : List Int) (o n fmt : Int) :
    BigNumber.toBytes ⟨m, some v⟩ buf o n fmt = BigNumber.toBytes ⟨m, some 0⟩ buf o n fmt := by
  have hd : ∀ base conv, BigNumber.digits base conv v = BigNumber.digits base conv 0 := by
    intro base conv
    unfold BigNumber.digits
    rw [show v.toNat = 0 by omega]
    rfl
  unfold BigNumber.toBytes
  simp only [hd]

/-- C90. `toBytes` on any number, buffer, offset, length and format: the exception is that of `bytesVerdict` (and leaves the buffer alone unless it is
ArrayIndexOutOfBoundsException); otherwise the cells the indices name hold the bytes of the number, of zero if the number is negative. -/
theorem C90_toBytes_total (x : BigNumber) (buf : List Int) (o n fmt : Int) :
    match bytesVerdict x.value fmt n buf.length o with
    | some e => (x.toBytes buf o n fmt).1 = .error e ∧ (e ≠ .arrayIndexOutOfBounds → (x.toBytes buf o n fmt).2 = buf)
    | none => ∃ v buf' cells, x.value = some v ∧ x.toBytes buf o n fmt = (.ok (), buf') ∧ cells.length = n.toNat ∧ Bytes cells ∧
        numValue fmt cells = max v 0 ∧ (fmt = BCD → ∀ b ∈ cells, valueOf b / 16 < 10 ∧ valueOf b % 16 < 10) ∧
        Stored buf buf' o n.toNat (fun j => cells.getD j 0) := by
  obtain ⟨m, v⟩ := x
  unfold bytesVerdict
  by_cases hf : fmt ≠ BCD ∧ fmt ≠ HEX
  · rw [if_pos hf]
    simp only
    have : BigNumber.toBytes ⟨m, v⟩ buf o n fmt = (.error .arithmetic, buf) := by
      unfold BigNumber.toBytes
      rw [if_neg (show ¬ (fmt = BigNumber.FORMAT_BCD ∨ fmt = BigNumber.FORMAT_HEX) from fun h => h.elim hf.1 hf.2)]
    rw [this]
    exact ⟨rfl, fun _ => rfl⟩
  · rw [if_neg hf]
    have hf' : fmt = BCD ∨ fmt = HEX := by
      by_cases h1 : fmt = BCD
      · exact .inl h1
      · by_cases h2 : fmt = HEX
        · exact .inr h2
        · exact absurd ⟨h1, h2⟩ hf
    cases v with
    | none =>
      simp only
      have : BigNumber.toBytes ⟨m, none⟩ buf o n fmt = (.error .typeError, buf) := by
        unfold BigNumber.toBytes
        rw [if_pos (show fmt = BigNumber.FORMAT_BCD ∨ fmt = BigNumber.FORMAT_HEX from hf')]
      rw [this]
      exact ⟨rfl, fun _ => rfl⟩
    | some v =>
      simp only
      have hneg : n < 0 → BigNumber.toBytes ⟨m, some v⟩ buf o n fmt = (.error .arithmetic, buf) := by
        intro hn
        unfold BigNumber.toBytes
        rw [if_pos (show fmt = BigNumber.FORMAT_BCD ∨ fmt = BigNumber.FORMAT_HEX from hf')]
        simp only
        rw [if_pos (by omega)]
      have hnonneg : 0 ≤ n → BigNumber.toBytes ⟨m, some v⟩ buf o n fmt =
          if v.toNat < (if fmt = BCD then 100 else 256) ^ n.toNat then
            Util.arrayCopy (if fmt = BCD then BigNumber.outBytes 100 toBcd v.toNat n.toNat else BigNumber.outBytes 256 toHex v.toNat n.toNat) 0 buf o n
          else (.error .arithmetic, buf) := by
        intro hn
        have hv : BigNumber.toBytes ⟨m, some v⟩ buf o n fmt = BigNumber.toBytes ⟨m, some (v.toNat : Int)⟩ buf o (n.toNat : Nat) fmt := by
          rw [show ((n.toNat : Nat) : Int) = n by omega]
          by_cases h : v < 0
          · rw [toBytes_negative m v h, show v.toNat = 0 by omega]; rfl
          · rw [show ((v.toNat : Nat) : Int) = v by omega]
        have e : ((n.toNat : Nat) : Int) = n := by omega
        by_cases h1 : fmt = BCD
        · have := BigNumber.toBytes_bcd m v.toNat buf o n.toNat
          rw [hv, if_pos h1, if_pos h1, h1, show BCD = BigNumber.FORMAT_BCD from rfl, this, e]
        · have h2 : fmt = HEX := hf'.resolve_left h1
          have := BigNumber.toBytes_hex m v.toNat buf o n.toNat
          rw [hv, if_neg h1, if_neg h1, h2, show HEX = BigNumber.FORMAT_HEX from rfl, this, e]
      generalize hb : (if fmt = BCD then 100 else 256 : Nat) = base at hnonneg ⊢
      have hpos : 0 < base ^ n.toNat := Nat.pow_pos (by rw [← hb]; split <;> omega)
      by_cases hc : n < 0 ∨ ((base ^ n.toNat : Nat) : Int) ≤ v
      · rw [if_pos hc]
        simp only
        have : BigNumber.toBytes ⟨m, some v⟩ buf o n fmt = (.error .arithmetic, buf) := by
          by_cases hn : n < 0
          · exact hneg hn
          · rw [hnonneg (by omega), if_neg (by omega)]
        rw [this]
        exact ⟨rfl, fun _ => rfl⟩
      · rw [if_neg hc]
        have hlt : v.toNat < base ^ n.toNat := by omega
        rw [hnonneg (by omega), if_pos hlt]
        obtain ⟨cells, hc1, hc2, hc3, hc4, hc5⟩ := outCells fmt v.toNat n.toNat (by rw [hb]; exact hlt)
        rw [hc1]
        obtain ⟨a1, a2⟩ := arrayCopy_whole cells buf o
        have hcl : (cells.length : Int) = n := by omega
        have hne : cells = [] ↔ ¬ 0 < n := by
          rw [← List.length_eq_zero_iff]; omega
        rw [hcl, hc2, hne] at a1 a2
        by_cases hr : 0 < n ∧ ¬ Reachable buf.length o n.toNat
        · rw [if_pos hr]
          simp only
          refine ⟨a2 ?_, fun h => absurd rfl h⟩
          rintro (h | h)
          · exact hr.2 h
          · exact h hr.1
        · rw [if_neg hr]
          simp only
          obtain ⟨d', h1, h2⟩ := a1 (by
            by_cases h : Reachable buf.length o n.toNat
            · exact .inl h
            · exact .inr (fun h' => hr ⟨h', h⟩))
          exact ⟨v, d', cells, rfl, h1, hc2, hc3, by rw [hc4]; omega, hc5, h2⟩

/-- C90. `compareTo` on any two objects: equal (0) when both are the same, also when both were never initialised; TypeError when only one of them was. -/
theorem C90_compare_total (x y : BigNumber) :
    x.compareTo y = match x.value, y.value with
      | none, none => .ok 0
      | some a, some b => .ok (if a = b then 0 else if b < a then 1 else -1)
      | _, _ => .error .typeError := by
  obtain ⟨m, v⟩ := x
  obtain ⟨m', w⟩ := y
  unfold BigNumber.compareTo
  cases v with
  | none => cases w <;> rfl
  | some a =>
    cases w with
    | none => rfl
    | some b =>
      simp only [Option.some.injEq]
      by_cases h : a = b
      · rw [if_pos h, if_pos h]
      · rw [if_neg h, if_neg h]
        by_cases h' : b < a
        · rw [if_pos h', if_pos h']
        · rw [if_neg h', if_neg h']

/-- C90. `compareTo` with an array: the exception of its arguments first, then TypeError before `init`, else the comparison. -/
theorem C90_compare_array_total (x : BigNumber) (c : NumCall) :
    x.compareToArray c.arr c.off c.len c.fmt = match argument c, x.value with
      | .error e, _ => .error e
      | .ok _, none => .error .typeError
      | .ok b, some a => .ok (if a = b then 0 else if b < a then 1 else -1) := by
  unfold BigNumber.compareToArray
  rw [operand_total]
  cases argument c with
  | error e => rfl
  | ok b =>
    simp only [C90_compare_total]
    cases x.value <;> rfl

/-! Hex FF (signed -1) then add BCD "25"; an overrun that leaves a number behind; a number below zero written as zero. -/
example : (numSpecRun none [⟨.init, some [-1, 2], 0, 1, 2⟩, ⟨.add, some [0x25], 0, 1, 1⟩, ⟨.subtract, none, 0, 1, 1⟩, ⟨.multiply, some [3], -1, 1, 2⟩]) =
    ([.ok (), .ok (), .error .nullPointer, .ok ()], some 840) := by decide
example : (numSpecRun none [⟨.init, some [1, 2], 1, 2, 2⟩, ⟨.add, some [1], 0, 1, 2⟩]) = ([.error .indexError, .ok ()], some 513) := by decide
example : bytesVerdict (some 255) 2 1 4 (-4) = none ∧ bytesVerdict (some 256) 2 1 4 0 = some .arithmetic ∧ bytesVerdict (some 100) 1 1 4 0 = some .arithmetic ∧
    bytesVerdict (some (-5)) 2 1 4 4 = some .arrayIndexOutOfBounds ∧ bytesVerdict none 2 1 4 0 = some .typeError ∧ bytesVerdict none 3 1 4 0 = some .arithmetic := by decide
example : BigNumber.toBytes ⟨none, some (-5)⟩ [7, 7, 7] (-2) 2 2 = (.ok (), [7, 0, 0]) := by decide

end Verif.Props
