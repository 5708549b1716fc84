import Verif.Props.CardSession
/-! C117: lists keep their length; APDUs on a card. -/
namespace Verif.Props
open Verif.Py Verif.Model Verif.Model.Card Verif.Spec Verif.Spec.Card

theorem listAt_some {w : Card} {r : Nat} {l : List Int} (h : listAt w r = some l) : w r = .array l := by
  unfold listAt at h
  split at h
  · next l' hl => injection h with h; rw [hl, h]
  · cases h

/-! ### The functions that store into lists -/

theorem copyLoop_len (s : Nat) (so : Int) (d : Nat) (o : Int) (r : Nat) : ∀ (n i : Nat) (h : Heap), ((Util.copyLoop h s so d o i n).2 r).length = (h r).length := by
  intro n
  induction n with
  | zero => intro i h; rfl
  | succ n ih =>
    intro i h
    simp only [Util.copyLoop]
    split
    · rfl
    · split
      · rfl
      · next l hl =>
        rw [ih]
        simp only [Heap.upd]
        split
        · next e => rw [set_length hl, e]
        · rfl

theorem copyRef_len (h : Heap) (s : Nat) (so : Int) (d : Nat) (o n : Int) (r : Nat) : ((Util.arrayCopyRef h s so d o n).2 r).length = (h r).length := by
  have := copyLoop_len s so d o r (rangeLen n) 0 h
  unfold Util.arrayCopyRef
  simp only [JCSystem.beginTransaction, JCSystem.commitTransaction, JCSystem.abortTransaction]
  split <;> next e => rw [e] at this; exact this

theorem copy_len (src : List Int) (so : Int) (dest : List Int) (o n : Int) : (Util.arrayCopy src so dest o n).2.length = dest.length :=
  copyRef_len (Util.twoLists src dest) 0 so 1 o n 1

theorem copy_len' {src dest l : List Int} {so o n : Int} {x : Except Err Unit} (h : Util.arrayCopy src so dest o n = (x, l)) : l.length = dest.length := by
  have := copy_len src so dest o n
  rw [h] at this
  exact this

theorem copySelf_len (a : List Int) (so o n : Int) : (Util.arrayCopySelf a so o n).2.length = a.length :=
  copyRef_len (Util.twoLists a []) 0 so 0 o n 0

theorem copyNonAtomicRef_len (h : Heap) (s : Nat) (so : Int) (d : Nat) (o n : Int) (r : Nat) : ((Util.arrayCopyNonAtomicRef h s so d o n).2 r).length = (h r).length := by
  have := copyLoop_len s so d o r (rangeLen n) 0 h
  unfold Util.arrayCopyNonAtomicRef
  split
  · next e => rw [e] at this; exact this
  · exact this

theorem copyNonAtomic_len (src : List Int) (so : Int) (dest : List Int) (o n : Int) : (Util.arrayCopyNonAtomic src so dest o n).2.length = dest.length :=
  copyNonAtomicRef_len (Util.twoLists src dest) 0 so 1 o n 1

theorem fillLoop_len (o v : Int) : ∀ (n i : Nat) (l : List Int), (Util.fillLoop l o v i n).2.length = l.length := by
  intro n
  induction n with
  | zero => intro i l; rfl
  | succ n ih =>
    intro i l
    simp only [Util.fillLoop]
    split
    · rfl
    · next hl => rw [ih, set_length hl]

theorem fill_len (l : List Int) (o n v : Int) : (Util.arrayFillNonAtomic l o n v).2.length = l.length := by
  have := fillLoop_len o v (rangeLen n) 0 l
  unfold Util.arrayFillNonAtomic
  split
  · next e => rw [e] at this; exact this
  · exact this

theorem setShort_len (l : List Int) (o v : Int) : (Util.setShort l o v).2.length = l.length := by
  unfold Util.setShort
  dsimp only
  repeat' split
  all_goals grind [→ set_length]

theorem setInt_len (l : List Int) (o a b : Int) : (JCint.setInt l o a b).2.length = l.length := by
  unfold JCint.setInt
  dsimp only
  repeat' split
  all_goals grind [→ set_length]

theorem memory_len (l : List Int) (o t : Int) : ((JCSystem.getAvailableMemory3 (some l) o t).2.getD l).length = l.length := by
  unfold JCSystem.getAvailableMemory3
  dsimp only
  repeat' split
  all_goals simp only [Option.getD_some]
  all_goals grind [→ set_length]

theorem genLoop_len (rnd : Nat → Nat) (o : Int) : ∀ (n i : Nat) (l : List Int), (RandomData.genLoop rnd l o i n).2.length = l.length := by
  intro n
  induction n with
  | zero => intro i l; rfl
  | succ n ih =>
    intro i l
    simp only [RandomData.genLoop]
    split
    · rfl
    · next hl => rw [ih, set_length hl]

theorem random_len (rnd : Nat → Nat) (l : List Int) (o n : Int) : (RandomData.generateData rnd l o n).2.length = l.length := by
  have := genLoop_len rnd o (rangeLen n) 0 l
  unfold RandomData.generateData
  split
  · rfl
  · split <;> next e => rw [e] at this; exact this

theorem writeChunks_len (o : Int) : ∀ (cs : List Int) (n : Int) (l : List Int), (BERTag.writeChunks l o n cs).2.length = l.length := by
  intro cs
  induction cs with
  | nil => intro n l; rfl
  | cons c cs ih =>
    intro n l
    simp only [BERTag.writeChunks]
    split
    · rfl
    · next hl => rw [ih, set_length hl]

theorem sanity_len (l : List Int) : (sanitycheck l).length = l.length := by simp [sanitycheck]

theorem tagToBytes_len (t : BERTag) (l : List Int) (o : Int) : (t.toBytes l o).2.length = l.length := by
  unfold BERTag.toBytes
  dsimp only
  split
  · split
    · split
      · rfl
      · next hl => simp only [sanity_len, set_length hl]
    · split
      · rfl
      · next hl =>
        have := writeChunks_len o (BERTag.chunks (by assumption)).reverse 1 (by assumption)
        repeat' split
        all_goals grind [→ set_length, sanity_len, writeChunks_len]
  · rfl

theorem tlvToBytes_len (t : BERTLV) (l : List Int) (o : Int) : (t.toBytes l o).2.length = l.length := by
  unfold BERTLV.toBytes
  split
  · rfl
  · next tag _ =>
    have h1 := tagToBytes_len tag l o
    split
    · next e => rw [e] at h1; exact h1
    · next bLen b e =>
      rw [e] at h1
      simp only at h1
      split
      · exact h1
      · split
        · exact h1
        · next b' hb =>
          have h2 := set_length hb
          have h3 := copy_len (t.value.getD []) 0 b' (o + (bLen + 1)) t.length
          dsimp only
          split <;> next e' => rw [e'] at h3; simp only at h3 ⊢; omega

theorem getValue_len (t : BERTLV) (l : List Int) (o : Int) : (t.getValue l o).2.length = l.length := by
  unfold BERTLV.getValue
  have h3 := copy_len (t.value.getD []) 0 l o t.length
  split
  · rfl
  · split <;> next e' => rw [e'] at h3; exact h3

theorem appendStatic_len (a : List Int) (o : Int) (b : List Int) (o' : Int) : (BERTLV.appendStatic a o b o').2.length = b.length := by
  unfold BERTLV.appendStatic
  repeat' split
  all_goals first | rfl | exact tlvToBytes_len _ _ _

theorem getKey_len (k : DESKey) (l : List Int) (o : Int) : (k.getKey l o).2.length = l.length := by
  unfold DESKey.getKey
  split
  · rfl
  · exact copy_len _ _ _ _ _

theorem getComponent_len (k : RSAKey) (c : Option (List Int)) (l : List Int) (o : Int) : (k.getComponent c l o).2.length = l.length := by
  unfold RSAKey.getComponent
  split
  · rfl
  · split
    · rfl
    · next v =>
      have h3 := copy_len v 0 l o v.length
      split <;> next e' => rw [e'] at h3; exact h3

theorem bigToBytes_len (x : BigNumber) (l : List Int) (o n f : Int) : (x.toBytes l o n f).2.length = l.length := by
  unfold BigNumber.toBytes
  repeat' split
  all_goals first | rfl | (dsimp only; split <;> first | rfl | exact copy_len _ _ _ _ _)

theorem digestWrite_len (o : Int) : ∀ (vs : List Nat) (i : Nat) (l : List Int), (MessageDigest.writeLoop l o i vs).2.length = l.length := by
  intro vs
  induction vs with
  | nil => intro i l; rfl
  | cons v vs ih =>
    intro i l
    simp only [MessageDigest.writeLoop]
    split
    · rfl
    · next hl => rw [ih, set_length hl]

theorem digestFinal_len (H : HashLib) (d : MessageDigest) (a : List Int) (o n : Int) (b : List Int) (o' : Int) : (d.doFinal H a o n b o').2.1.length = b.length := by
  unfold MessageDigest.doFinal
  split
  · rfl
  · next d' _ =>
    have h3 := digestWrite_len o' (H d'.algorithm d'.m) 0 b
    split <;> next e' => rw [e'] at h3; exact h3

theorem desFinal_len (c : DESCipher) (a : List Int) (o n : Int) (b : List Int) (o' : Int) : (c.doFinal a o n b o').2.1.length = b.length := by
  unfold DESCipher.doFinal
  repeat' split
  all_goals first | rfl | skip
  dsimp only
  next r _ _ =>
    have h3 := copy_len (binaryToArray r) 0 b o' (binaryToArray r).length
    split <;> next e' => rw [e'] at h3; exact h3

theorem rsaFinal_len (heap : KeyHeap) (ops : RSAOps) (ls : Bool) (rnd : List Nat) (c : RSACipher) (a : List Int) (o n : Int) (b : List Int) (o' : Int)
    (y : Res (List Int) Int) (h : c.doFinal heap ops ls rnd a o n b o' = some y) : y.2.length = b.length := by
  unfold RSACipher.doFinal at h
  repeat' (first | (split at h) | (dsimp only at h; split at h))
  all_goals first
    | (injection h with h; subst h; rfl)
    | (injection h with h; subst h; exact copy_len' (by assumption))
    | cases h
    | skip

theorem copyRange_len (src : List Int) (so o : Int) : ∀ (n i : Nat) (l : List Int), (copyRange src so l o i n).2.length = l.length := by
  intro n
  induction n with
  | zero => intro i l; rfl
  | succ n ih =>
    intro i l
    simp only [copyRange]
    split
    · rfl
    · split
      · rfl
      · next hl => rw [ih, set_length hl]

theorem copyRange_len' {src l l' : List Int} {so o : Int} {n i : Nat} {x : Except Err Unit} (h : copyRange src so l o i n = (x, l')) : l'.length = l.length := by
  have := copyRange_len src so o n i l
  rw [h] at this
  exact this

theorem sendFrom_buffer (a : APDU) (d : List Int) (o n : Int) : (a.sendFrom d o n).2.buffer = a.buffer := by
  unfold APDU.sendFrom
  repeat' (first | rfl | split)

theorem sendBytes_buffer (a : APDU) (o n : Int) : (a.sendBytes o n).2.buffer = a.buffer := by
  unfold APDU.sendBytes
  split
  · rfl
  · exact sendFrom_buffer _ _ _ _

theorem setOutgoing_buffer (a : APDU) : a.setOutgoing.2.buffer = a.buffer := by
  unfold APDU.setOutgoing
  split <;> rfl

theorem setOutgoingLength_buffer (a : APDU) (n : Int) : (a.setOutgoingLength n).2.buffer = a.buffer := by
  unfold APDU.setOutgoingLength
  repeat' (first | rfl | split)

theorem apduBuffer_len (a : APDU) (op : APDU.Op) : (a.step op).2.buffer.length = a.buffer.length := by
  cases op with
  | setIncomingAndReceive =>
    simp only [APDU.step, APDU.setIncomingAndReceive]
    repeat' split
    all_goals first | rfl | exact copyRange_len' (by assumption)
  | receiveBytes o =>
    simp only [APDU.step, APDU.receiveBytes]
    repeat' split
    all_goals first | rfl | exact copyRange_len' (by assumption)
  | setOutgoing => simp only [APDU.step, setOutgoing_buffer]
  | setOutgoingLength n => simp only [APDU.step, setOutgoingLength_buffer]
  | sendBytes o n => simp only [APDU.step, sendBytes_buffer]
  | sendBytesLong d o n =>
    simp only [APDU.step, APDU.sendBytesLong]
    split
    · rfl
    · simp only [sendFrom_buffer]
  | setOutgoingAndSend o n =>
    simp only [APDU.step, APDU.setOutgoingAndSend]
    have h1 := setOutgoing_buffer a
    split
    · next e => rw [e] at h1; simp only at h1 ⊢; rw [h1]
    · next b e =>
      rw [e] at h1
      have h2 := setOutgoingLength_buffer b n
      split
      · next e' => rw [e'] at h2; simp only at h1 h2 ⊢; rw [h2, h1]
      · next c e' => rw [e'] at h2; simp only [sendBytes_buffer] at h1 h2 ⊢; rw [h2, h1]
  | poke i v =>
    simp only [APDU.step, APDU.poke]
    split
    · rfl
    · next h => exact set_length h

theorem halfBuffer_len (h : HalfAPDU) (op : APDU.Op) : (h.step op).2.buffer.length = h.buffer.length := by
  cases op <;> simp only [HalfAPDU.step]
  all_goals repeat' split
  all_goals first | rfl | exact set_length (by assumption)

theorem getBytes_len (a : AID) (l : List Int) (o : Int) (ho : 0 ≤ o) : (a.getBytes l o).2.length = l.length := by
  unfold AID.getBytes
  split
  · rfl
  · next h =>
    obtain ⟨n, rfl⟩ : ∃ n : Nat, o = n := ⟨o.toNat, by omega⟩
    simp only [setSlice, bound]
    rw [if_pos (by omega), if_pos (by omega)]
    simp only [List.length_append, List.length_take, List.length_drop]
    omega

theorem getPartialBytes_len (a : AID) (o : Int) (l : List Int) (o' n : Int) : (a.getPartialBytes o l o' n).2.length = l.length := by
  unfold AID.getPartialBytes
  dsimp only
  repeat' split
  all_goals rfl

/-! ### C117 -/

/-- The only calls that can change the length of the list at `r`: `getBytes` of an AID at a negative offset, and calls on an APDU made from that list. -/
def Resizes (w : Card) (r : Nat) : Step → Prop
  | .aidGetBytes _ d off => d = r ∧ off < 0
  | .apdu a _ | .sendBytesLong a _ _ _ => ∃ b x, w a = .apdu r b x
  | _ => False

theorem sem_len (env : CryptoEnv) (fuel : Nat) (w : Card) (s : Step) : ∀ e, sem env fuel w s = some e →
    ∀ u ∈ e.2, ∀ l l', w u.1 = .array l → u.2 = .array l' → ¬ Resizes w u.1 s → l'.length = l.length := by
  let P : Eff → Prop := fun e => ∀ u ∈ e.2, ∀ l l', w u.1 = .array l → u.2 = .array l' → ¬ Resizes w u.1 s → l'.length = l.length
  show ∀ e, sem env fuel w s = some e → P e
  have hw : P wrong := fun u hu => by simp [wrong] at hu
  have h0 : ∀ o, P (o, []) := fun o u hu => by simp at hu
  have h1 : ∀ o r l l', w r = .array l → l'.length = l.length → P (o, [(r, .array l')]) := by
    intro o r l l' hl hl' u hu m m' hm hm' _
    simp only [List.mem_singleton] at hu
    subst hu
    simp only at hm hm'
    rw [hl] at hm
    cases hm; cases hm'
    exact hl'
  have h2 : ∀ o r l l' c x, w r = .array l → l'.length = l.length → kind x ≠ .array → P (o, [(r, .array l'), (c, x)]) := by
    intro o r l l' c x hl hl' hx u hu m m' hm hm' hr
    simp only [List.mem_cons, List.not_mem_nil, or_false] at hu
    rcases hu with rfl | rfl
    · exact h1 o r l l' hl hl' _ (List.mem_singleton.2 rfl) m m' hm hm' hr
    · simp only at hm'
      subst hm'
      exact absurd rfl hx
  by_cases hs : Kind.array ∉ changes s
  · intro e he u hu l l' _ hu' _
    have := written env fuel w s e he u hu
    rw [hu'] at this
    exact absurd this hs
  rw [Classical.not_not] at hs
  have hapdu : ∀ a r b raw buf op x, (∀ q, w q = w r → (∃ b y, w a = .apdu q b y) → Resizes w q s) →
      w a = .apdu r b x → w r = .array raw → w b = .array buf → P (apduStep a r b raw buf op x) := by
    intro a r b raw buf op x hres ha hr hb u hu m m' hm hm' hn
    cases x with
    | full y =>
      simp only [apduStep, List.mem_cons, List.not_mem_nil, or_false] at hu
      rcases hu with rfl | rfl | rfl
      · simp at hm'
      · exact absurd (hres _ rfl ⟨_, _, ha⟩) hn
      · simp only [hb] at hm
        cases hm; cases hm'
        exact apduBuffer_len _ _
    | half y =>
      simp only [apduStep, List.mem_cons, List.not_mem_nil, or_false] at hu
      rcases hu with rfl | rfl
      · simp at hm'
      · simp only [hb] at hm
        cases hm; cases hm'
        exact halfBuffer_len _ _
  cases s <;> try (simp [changes] at hs; done)
  case newArray r l =>
    intro e he
    simp only [sem, Option.some.injEq] at he
    subst he
    refine make_ind hw fun hf u hu m m' hm hm' _ => ?_
    simp only [List.mem_singleton] at hu
    subst hu
    simp [hf] at hm
  case newAPDU a b r =>
    intro e he
    simp only [sem, Option.some.injEq] at he
    subst he
    split
    · next ha hb hc =>
      split
      · exact hw
      · refine onArray_ind hw fun l hl => ?_
        unfold newAPDU
        have hnew : ∀ o x y z, P (o, [(a, x), (b, y), (MODULE, z)]) := by
          intro o x y z u hu m m' hm hm' _
          simp only [List.mem_cons, List.not_mem_nil, or_false] at hu
          rcases hu with rfl | rfl | rfl
          · simp [ha] at hm
          · simp [hb] at hm
          · simp [hc] at hm
        repeat' first
          | exact h0 _
          | exact hnew _ _ _ _
          | split
    · exact hw
  case rsaFinal c rnd r off len r' off' =>
    intro e he
    simp only [sem] at he
    split at he
    · next x a b hx ha hb =>
      rw [Option.map_eq_some_iff] at he
      obtain ⟨y, hy, rfl⟩ := he
      exact h1 _ _ _ _ hb (rsaFinal_len _ _ _ _ _ _ _ _ _ _ _ hy)
    · injection he with he; subst he; exact hw
  case aidGetBytes a r off =>
    intro e he
    simp only [sem, Option.some.injEq] at he
    subst he
    refine onArray_ind hw fun l hl => ?_
    split
    · intro u hu m m' hm hm' hn
      simp only [arrayToInt, List.mem_singleton] at hu
      subst hu
      simp only [hl] at hm hm'
      cases hm; cases hm'
      refine getBytes_len _ _ _ ?_
      simp only [Resizes, not_and, Int.not_lt] at hn
      exact hn trivial
    · exact hw
  case arrayCopy a so d o n =>
    intro e he
    simp only [sem, Option.some.injEq] at he
    subst he
    refine onArray_ind hw fun l hl => onArray_ind hw fun l' hl' => ?_
    split
    · next e => exact h1 _ _ _ _ (e ▸ hl) (copySelf_len _ _ _ _)
    · exact h1 _ _ _ _ hl' (copy_len _ _ _ _ _)
  case arrayCopyNonAtomic a so d o n =>
    intro e he
    simp only [sem, Option.some.injEq] at he
    subst he
    refine onArray_ind hw fun l hl => onArray_ind hw fun l' hl' => ?_
    split
    · next e => exact h1 _ _ _ _ (e ▸ hl) (copyNonAtomicRef_len (Util.twoLists _ []) 0 _ 0 _ _ 0)
    · exact h1 _ _ _ _ hl' (copyNonAtomic_len _ _ _ _ _)
  all_goals first
    | (intro e he
       simp only [sem, Option.some.injEq] at he
       subst he)
    | (simp only [sem]
       refine onTLV_ind hw fun t x ht _ _ e he => ?_
       simp only [Option.some.injEq] at he; subst he)
  all_goals
    repeat' first
      | exact hw
      | exact h0 _
      | exact h1 _ _ _ _ (by assumption) (by first
          | exact set_length (by assumption)
          | exact copy_len _ _ _ _ _
          | exact fill_len _ _ _ _
          | exact setShort_len _ _ _
          | exact setInt_len _ _ _ _
          | exact memory_len _ _ _
          | exact random_len _ _ _ _
          | exact tagToBytes_len _ _ _
          | exact tlvToBytes_len _ _ _
          | exact getValue_len _ _ _
          | exact appendStatic_len _ _ _ _
          | exact getKey_len _ _ _
          | (split <;> exact getComponent_len _ _ _ _)
          | exact bigToBytes_len _ _ _ _ _
          | exact getPartialBytes_len _ _ _ _ _
          | rfl)
      | exact h2 _ _ _ _ _ _ (by assumption) (by first | exact digestFinal_len _ _ _ _ _ _ _ | exact desFinal_len _ _ _ _ _ _) (by simp [kind])
      | exact hapdu _ _ _ _ _ _ _ (fun q _ h => h) (by assumption) (by assumption) (by assumption)
      | refine onArray_ind hw fun l hl => ?_
      | refine onAPDU_ind hw fun r b raw buf x hx hr hb => ?_
      | split

/-- **C117** (lengths). No call changes the length of a list, except `getBytes` of an AID at a negative offset and calls on an APDU made from that list. -/
theorem C117_length {env : CryptoEnv} {fuel : Nat} {w w' : Card} {s : Step} {o : Except Err Card.Out} (h : step env fuel w s = some (o, w')) {r : Nat}
    {l : List Int} (hl : listAt w r = some l) (hr : ¬ Resizes w r s) : ∃ l', listAt w' r = some l' ∧ l'.length = l.length := by
  obtain ⟨e, he, _, rfl⟩ := step_sem h
  have hw : w r = .array l := listAt_some hl
  rcases put_mem w e.2 r with hp | ⟨u, hu, rfl, hp⟩
  · exact ⟨l, by rw [listAt, hp, hw], rfl⟩
  · rcases (card_tidy env fuel w s e he u hu).kind with hk | hk
    · rw [hw] at hk; simp at hk
    · rw [hw] at hk
      cases hu2 : u.2 <;> rw [hu2] at hk <;> simp only [kind] at hk
      case array l' =>
        exact ⟨l', by rw [listAt, hp, hu2], sem_len env fuel w s e he u hu l l' hw hu2 hr⟩
      case key k => cases k <;> simp only at hk <;> first | (cases hk; done) | (split at hk <;> cases hk)
      all_goals cases hk

/-! ### APDUs -/

/-- The call, if it is one on the APDU at `a`. -/
def apduCall (a : Nat) (w : Card) : Step → Option APDU.Op
  | .apdu j op => if j = a then some op else none
  | .sendBytesLong j r off len => if j = a then (listAt w r).map fun l => .sendBytesLong l off len else none
  | _ => none

/-- Is this a call on the APDU at `a`? -/
def mine (a : Nat) : Step → Bool
  | .apdu j _ | .sendBytesLong j _ _ _ => j = a
  | _ => false

/-- The contents `l` stored into the buffer, cell by cell from cell `k`. -/
def stores (k : Nat) : List Int → List APDU.Op
  | [] => []
  | v :: vs => .poke k v :: stores (k + 1) vs

/-- The history of the APDU at `a` with the buffer at `b`: the calls on it and, after every other call, the contents of its buffer. -/
def apduHistory (a b : Nat) (env : CryptoEnv) (fuel : Nat) (w : Card) : List Step → List APDU.Op
  | [] => []
  | s :: ss => match step env fuel w s with
    | none => []
    | some (_, w') => (match apduCall a w s with
      | some op => [op]
      | none => stores 0 ((listAt w' b).getD [])) ++ apduHistory a b env fuel w' ss

/-- The APDU at `a`, made from the list at `r` and with the buffer at `b`, is `y`. -/
structure IsAPDU (w : Card) (a r b : Nat) (y : APDU) : Prop where
  obj : w a = .apdu r b (bare (.full y))
  raw : listAt w r = some y.raw
  buffer : listAt w b = some y.buffer

theorem stores_run : ∀ (vs pre rest : List Int) (y : APDU), vs.length = rest.length → y.buffer = pre ++ rest →
    APDU.run y (stores pre.length vs) = { y with buffer := pre ++ vs } := by
  intro vs
  induction vs with
  | nil =>
    intro pre rest y hl hy
    cases rest with
    | nil => simp only [stores, APDU.run, List.foldl_nil]; rw [← hy]
    | cons => simp at hl
  | cons v vs ih =>
    intro pre rest y hl hy
    cases rest with
    | nil => simp at hl
    | cons u rest =>
      have hs : Py.set y.buffer (pre.length : Int) v = .ok (pre ++ v :: rest) := by
        rw [hy]
        have : Py.set (pre ++ u :: rest) (pre.length : Int) v = .ok ((pre ++ u :: rest).set pre.length v) := by
          exact set_names _ _ _ _ ⟨by simp, .inl (by simp)⟩
        rw [this]
        simp
      have := ih (pre ++ [v]) rest { y with buffer := pre ++ v :: rest } (by simpa using hl) (by simp)
      simp only [stores, APDU.run, List.foldl_cons, APDU.step, APDU.poke, hs] at this ⊢
      simpa using this

/-- A call on another object that does not store into the list the APDU was made from. -/
theorem apdu_foreign {env : CryptoEnv} {fuel : Nat} {w w' : Card} {a r b : Nat} {y : APDU} (h : IsAPDU w a r b y) {s : Step} {o : Except Err Card.Out}
    (hs : step env fuel w s = some (o, w')) (hc : apduCall a w s = none) (hrb : mine a s = false → r ∉ writes w s ∧ ¬ Resizes w b s) :
    ∃ l, listAt w' b = some l ∧ l.length = y.buffer.length ∧ IsAPDU w' a r b { y with buffer := l } := by
  by_cases hm : mine a s = true
  · cases s <;> simp [mine] at hm
    case apdu j op => simp [apduCall, hm] at hc
    case sendBytesLong j q off len =>
      have hq : listAt w q = none := by simpa [apduCall, hm] using hc
      simp only [step, sem, onArray_eq, hq, Option.elim, wrong, Option.map_some, Option.some.injEq, Prod.mk.injEq] at hs
      obtain ⟨_, rfl⟩ := hs
      exact ⟨y.buffer, h.buffer, rfl, h⟩
  have hm : mine a s = false := by simpa using hm
  obtain ⟨hr, hb⟩ := hrb hm
  clear hm hrb
  obtain ⟨l, hl, hlen⟩ := C117_length hs h.buffer hb
  have hraw : listAt w' r = some y.raw := by
    have := C114_frame env fuel w w' s o hs r hr
    rw [listAt, this]; exact h.raw
  refine ⟨l, hl, hlen, ⟨?_, hraw, hl⟩⟩
  show w' a = .apdu r b (bare (.full y))
  rw [← h.obj]
  obtain ⟨e, he, _, rfl⟩ := step_sem hs
  by_cases hk : kind (w a) ∉ changes s
  · exact unchanged he (by simp [h.obj, kind]) hk
  · rw [Classical.not_not, h.obj] at hk
    have hstep : ∀ j r' b' raw buf op x, j ≠ a → w r' = .array raw → w b' = .array buf → w.put (apduStep j r' b' raw buf op x).2 a = w a := by
      intro j r' b' raw buf op x hj hr' hb'
      have n1 : r' ≠ a := fun e => by rw [e, h.obj] at hr'; cases hr'
      have n2 : b' ≠ a := fun e => by rw [e, h.obj] at hb'; cases hb'
      rcases put_mem w (apduStep j r' b' raw buf op x).2 a with hp | ⟨u, hu, hua, _⟩
      · exact hp
      · exfalso
        cases x with
        | full z =>
          simp only [apduStep, List.mem_cons, List.not_mem_nil, or_false] at hu
          rcases hu with rfl | rfl | rfl
          · exact hj hua
          · exact n1 hua
          · exact n2 hua
        | half z =>
          simp only [apduStep, List.mem_cons, List.not_mem_nil, or_false] at hu
          rcases hu with rfl | rfl
          · exact hj hua
          · exact n2 hua
    cases s <;> try (simp [changes, kind] at hk; done)
    case newAPDU a' b' r' =>
      simp only [sem, Option.some.injEq] at he
      subst he
      split
      · next ha' hb' hm =>
        split
        · rfl
        · refine onArray_ind (P := fun e => w.put e.2 a = w a) rfl fun l hl => ?_
          have hnew : ∀ x z v, w.put [(a', x), (b', z), (MODULE, v)] a = w a := by
            intro x z v
            rcases put_mem w [(a', x), (b', z), (MODULE, v)] a with hp | ⟨u, hu, hua, _⟩
            · exact hp
            · exfalso
              simp only [List.mem_cons, List.not_mem_nil, or_false] at hu
              rcases hu with rfl | rfl | rfl
              · simp only at hua; rw [hua, h.obj] at ha'; cases ha'
              · simp only at hua; rw [hua, h.obj] at hb'; cases hb'
              · simp only at hua; rw [hua, h.obj] at hm; cases hm
          unfold newAPDU
          repeat' first
            | rfl
            | exact hnew _ _ _
            | split
      · rfl
    case apdu j op =>
      simp only [sem, Option.some.injEq] at he
      subst he
      have hj : j ≠ a := fun e => by simp [apduCall, e] at hc
      exact onAPDU_ind (P := fun e => w.put e.2 a = w a) rfl fun r' b' raw buf x hx hr' hb' => hstep _ _ _ _ _ _ _ hj hr' hb'
    case sendBytesLong j q off len =>
      simp only [sem, Option.some.injEq] at he
      subst he
      refine onArray_ind (P := fun e => w.put e.2 a = w a) rfl fun l hl => ?_
      have hj : j ≠ a := fun e => by simp [apduCall, e, listAt, hl] at hc
      exact onAPDU_ind (P := fun e => w.put e.2 a = w a) rfl fun r' b' raw buf x hx hr' hb' => hstep _ _ _ _ _ _ _ hj hr' hb'

/-- A call on the APDU. -/
theorem apdu_own {env : CryptoEnv} {fuel : Nat} {w : Card} {a r b : Nat} {y : APDU} (h : IsAPDU w a r b y) (hrb : r ≠ b) {s : Step} {op : APDU.Op}
    (hc : apduCall a w s = some op) :
    ∃ w', step env fuel w s = some ((y.step op).1.map .int, w') ∧ IsAPDU w' a r b (y.step op).2 := by
  have har : r ≠ a := fun e => by have := listAt_some h.raw; rw [e, h.obj] at this; cases this
  have hab : b ≠ a := fun e => by have := listAt_some h.buffer; rw [e, h.obj] at this; cases this
  have key : ∀ w', w' = w.put (apduStep a r b y.raw y.buffer op (bare (.full y))).2 → IsAPDU w' a r b (y.step op).2 := by
    rintro _ rfl
    simp only [apduStep, bare]
    generalize APDU.step _ op = z
    refine ⟨?_, ?_, ?_⟩
    · simp [put, har.symm, hab.symm, bare]
    · simp [listAt, put, hrb]
    · simp [listAt, put]
  cases s <;> simp only [apduCall, reduceCtorEq] at hc
  case apdu j op' =>
    split at hc
    · next e =>
      injection hc with hc
      subst e; subst hc
      refine ⟨_, ?_, key _ rfl⟩
      simp only [step, sem, onAPDU, h.obj, onArray_eq, h.raw, h.buffer, Option.elim, Option.map_some]
      rfl
    · cases hc
  case sendBytesLong j q off len =>
    split at hc
    · next e =>
      rw [Option.map_eq_some_iff] at hc
      obtain ⟨l, hl, rfl⟩ := hc
      subst e
      refine ⟨_, ?_, key _ rfl⟩
      simp only [step, sem, onAPDU, h.obj, onArray_eq, h.raw, h.buffer, hl, Option.elim, Option.map_some]
      rfl
    · cases hc

/-- What a program must leave alone for the history of an APDU to be that of its own calls: only the APDU's own calls store into the list it was made from,
and no other call changes the length of its buffer (see `Resizes`). -/
def LeavesAPDU (env : CryptoEnv) (fuel : Nat) (w : Card) (prog : List Step) (a r b : Nat) : Prop :=
  ∀ c ∈ calls env fuel w prog, mine a c.2 = false → r ∉ writes c.1 c.2 ∧ ¬ Resizes c.1 b c.2

theorem run_append' (y : APDU) (l l' : List APDU.Op) : y.run (l ++ l') = (y.run l).run l' := by simp [APDU.run]

/-- **C117** (APDUs). On a card, an APDU is in the state its own calls put it in, with the contents its buffer was given in between, whatever the program does
with the other objects and with the buffer; and so are its two lists, and the answers to the next calls. -/
theorem C117_apdu {env : CryptoEnv} {fuel : Nat} {a r b : Nat} (hrb : r ≠ b) : ∀ {prog : List Step} {w w' : Card} {outs : List (Except Err Card.Out)} {y : APDU},
    run env fuel w prog = some (outs, w') → IsAPDU w a r b y → LeavesAPDU env fuel w prog a r b →
    let z := y.run (apduHistory a b env fuel w prog)
    IsAPDU w' a r b z ∧
    (∀ s op, apduCall a w' s = some op → ∃ w'', step env fuel w' s = some ((z.step op).1.map .int, w'')) ∧
    step env fuel w' (.askAPDU a .currentState) = some (.ok (.int z.getCurrentState), w') ∧
    step env fuel w' (.askAPDU a .isISOInterindustryCLA) = some (z.isISOInterindustryCLA.map .bool, w') ∧
    step env fuel w' (.askAPDU a .isCommandChainingCLA) = some (z.isCommandChainingCLA.map .bool, w') ∧
    step env fuel w' (.askAPDU a .incomingLength) = some (.ok (.int z.getIncomingLength), w') ∧
    step env fuel w' (.askAPDU a .offsetCdata) = some (.ok (.int z.getOffsetCdata), w') ∧
    step env fuel w' (.getBuffer a) = some (.ok (.ref b), w') := by
  intro prog
  induction prog with
  | nil =>
    intro w w' outs y hr h _
    simp only [run, Option.some.injEq, Prod.mk.injEq] at hr
    obtain ⟨_, rfl⟩ := hr
    refine ⟨h, fun s op hc => ?_, ?_, ?_, ?_, ?_, ?_, ?_⟩
    · obtain ⟨w', hw, _⟩ := apdu_own (env := env) (fuel := fuel) h hrb hc
      exact ⟨w', hw⟩
    all_goals
      simp only [step, sem, onAPDU, h.obj, onArray_eq, h.raw, h.buffer, Option.elim, Option.map_some]
      rfl
  | cons s ss ih =>
    intro w w' outs y hr h hl
    simp only [run] at hr
    cases he : step env fuel w s with
    | none => simp [he] at hr
    | some x =>
      obtain ⟨o, w1⟩ := x
      simp only [he] at hr
      cases hrr : run env fuel w1 ss with
      | none => simp [hrr] at hr
      | some q =>
        obtain ⟨outs1, w2⟩ := q
        simp only [hrr, Option.map_some, Option.some.injEq, Prod.mk.injEq] at hr
        obtain ⟨_, rfl⟩ := hr
        have hl1 : LeavesAPDU env fuel w1 ss a r b := fun c hc => hl c (by simp [calls, he, hc])
        intro z
        have hz0 : z = y.run ((match apduCall a w s with
          | some op => [op]
          | none => stores 0 ((listAt w1 b).getD [])) ++ apduHistory a b env fuel w1 ss) := by
          show y.run (apduHistory a b env fuel w (s :: ss)) = _
          simp only [apduHistory, he]
        cases hc : apduCall a w s with
        | some op =>
          obtain ⟨w'', e1, e2⟩ := apdu_own (env := env) (fuel := fuel) h hrb hc
          rw [he] at e1
          injection e1 with e1
          injection e1 with _ e1
          subst e1
          have := ih hrr e2 hl1
          have hz : z = (y.step op).2.run (apduHistory a b env fuel w1 ss) := by rw [hz0, hc]; rfl
          rw [hz]
          exact this
        | none =>
          obtain ⟨l, f1, f2, f3⟩ := apdu_foreign h he hc (hl (w, s) (by simp [calls]))
          have := ih hrr f3 hl1
          have hz : z = APDU.run { y with buffer := l } (apduHistory a b env fuel w1 ss) := by
            rw [hz0, hc]
            simp only [f1, Option.getD_some]
            rw [run_append', show (0 : Nat) = ([] : List Int).length from rfl, stores_run l [] y.buffer y f2 rfl]
            rfl
          rw [hz]
          exact this

end Verif.Props
