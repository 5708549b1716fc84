import Verif.Lemmas.DESFull
import Verif.Props.DESPads
import Verif.Props.DESText
/-! C113: pyDes objects with every kind of argument, any pads and any sequence of calls. -/
namespace Verif.Props
open Verif.Py Verif.Model Verif.Model.PyDes Verif.Spec Verif.Spec.DES

/-- C113. Encrypting, decrypting and asking for settings leave no trace in an object of either class, whatever they were given and whether they
failed or not: without them every later call gives back or raises the same. -/
theorem C113_erase (py3 tr : Bool) (key : Data) (mode : Nat) (iv pad : Option Data) (padmode : Option Nat) (o : FObj)
    (h : FObj.new py3 tr key mode iv pad padmode = .ok o) (before after : List CallF) :
    (o.run py3 before).trace py3 after = (o.run py3 (before.filter CallF.sets)).trace py3 after :=
  DF.eqv_trace after (DF.erase_run before (DF.new_wf h))

/-! ### The getters tell everything -/

/-- Setting a key that cannot end half done: bytes, or on Python 3 ASCII text, at least eight of them. -/
def GoodKey (py3 : Bool) : CallF → Prop
  | .setKey k => 8 ≤ k.chars.length ∧ ∃ b, Stands py3 k b
  | _ => True

namespace DF

/-- The subkeys are those of the stored key. -/
def KnOK : FObj → Prop
  | .single d => d.Kn = createSubKeys d.key
  | .triple t => t.key1.Kn = createSubKeys (t.key.take 8) ∧ t.key2.Kn = createSubKeys ((t.key.drop 8).take 8) ∧
      t.key3.Kn = createSubKeys (if t.key.length = 16 then t.key.take 8 else (t.key.drop 16).take 8)

theorem guard_chars {py3 : Bool} {k : Data} (h : ∃ b, Stands py3 k b) : k.guard py3 = .ok k.chars := by
  obtain ⟨b, hb⟩ := h
  rw [guard_stands hb, chars_stands hb]

theorem inner_ok {py3 : Bool} {b bb : FBase} (h : FBase.new py3 b.mode b.iv b.padding b.padmode = .ok bb) {k : Data} (hk : k.guard py3 = .ok k.chars) (hl : k.chars.length = 8) :
    FTriple.inner py3 b k = .ok ⟨bb, k.chars, createSubKeys k.chars⟩ := by
  unfold FTriple.inner FDes.new
  rw [if_neg (by omega), h]
  simp only [hk]

theorem setInner_kn {py3 : Bool} (t : FTriple) {k : Data} (hk : k.guard py3 = .ok k.chars) (hl : k.chars.length = 16 ∨ k.chars.length = 24) :
    (∃ e, t.setInner py3 k = (.error e, t)) ∨ KnOK (.triple (t.setInner py3 k).2) ∧ (t.setInner py3 k).2.key = k.chars := by
  have sl : ∀ i, i + 8 ≤ k.chars.length → (k.slice i (i + 8)).chars.length = 8 := by
    intro i hi; rw [slice_chars]; simp; omega
  have sg : ∀ i j, (k.slice i j).guard py3 = .ok (k.slice i j).chars := by intro i j; rw [slice_guard hk, slice_chars]
  unfold FTriple.setInner
  cases hb : FBase.new py3 t.base.mode t.base.iv t.base.padding t.base.padmode with
  | error e =>
    left
    have : FTriple.inner py3 t.base (k.slice 0 8) = .error e := by
      unfold FTriple.inner FDes.new
      rw [if_neg (by have := sl 0 (by omega); simp only [Nat.zero_add] at this; omega), hb]
    rw [this]; exact ⟨e, rfl⟩
  | ok bb =>
    right
    rw [inner_ok hb (sg 0 8) (sl 0 (by omega))]
    simp only
    rw [inner_ok hb (sg 8 16) (sl 8 (by omega))]
    simp only
    by_cases h16 : k.chars.length = 16
    · rw [if_pos h16]
      simp only [hk]
      refine ⟨⟨?_, ?_, ?_⟩, trivial⟩
      · show createSubKeys (k.slice 0 8).chars = _; rw [slice_chars]; rfl
      · show createSubKeys (k.slice 8 16).chars = _; rw [slice_chars]
      · show createSubKeys (k.slice 0 8).chars = _; rw [slice_chars, if_pos h16]; rfl
    · rw [if_neg h16, inner_ok hb (sg 16 24) (sl 16 (by omega))]
      simp only [hk]
      refine ⟨⟨?_, ?_, ?_⟩, trivial⟩
      · show createSubKeys (k.slice 0 8).chars = _; rw [slice_chars]; rfl
      · show createSubKeys (k.slice 8 16).chars = _; rw [slice_chars]
      · show createSubKeys (k.slice 16 24).chars = _; rw [slice_chars, if_neg h16]

theorem setKey_kn {py3 : Bool} (t : FTriple) {k : Data} (hk : k.guard py3 = .ok k.chars) :
    (∃ v e, t.setKey py3 k = (.error e, { t with base := { t.base with iv := v } })) ∨
      KnOK (.triple (t.setKey py3 k).2) ∧ (t.setKey py3 k).2.key = k.chars ∧ (k.chars.length = 16 ∨ k.chars.length = 24) := by
  unfold FTriple.setKey
  by_cases hl : k.chars.length ≠ 24 ∧ k.chars.length ≠ 16
  · rw [if_pos hl]; exact .inl ⟨t.base.iv, _, rfl⟩
  · rw [if_neg hl]
    have hl' : k.chars.length = 16 ∨ k.chars.length = 24 := by omega
    by_cases hd : t.base.mode = CBC ∧ optChars t.base.iv = []
    · simp only [if_pos hd]
      split
      · exact .inl ⟨_, _, rfl⟩
      · rcases setInner_kn { t with base := { t.base with iv := some (k.slice 0 8) } } hk hl' with ⟨e, h⟩ | h
        · exact .inl ⟨_, e, h⟩
        · exact .inr ⟨h.1, h.2, hl'⟩
    · simp only [if_neg hd]
      split
      · exact .inl ⟨t.base.iv, _, rfl⟩
      · rcases setInner_kn t hk hl' with ⟨e, h⟩ | h
        · exact .inl ⟨t.base.iv, e, h⟩
        · exact .inr ⟨h.1, h.2, hl'⟩

theorem only_kn {t t' : FTriple} (h : OnlyIVs t t') (hk : KnOK (.triple t)) : KnOK (.triple t') := by
  obtain ⟨_, hkey, ⟨v1, h1⟩, ⟨v2, h2⟩, ⟨v3, h3⟩⟩ := h
  obtain ⟨a, b, c⟩ := hk
  exact ⟨by rw [h1, hkey]; exact a, by rw [h2, hkey]; exact b, by rw [h3, hkey]; exact c⟩

theorem call_kn {py3 : Bool} {o : FObj} (h : KnOK o) (c : CallF) (hc : GoodKey py3 c) : KnOK (o.call py3 c).2 := by
  cases o with
  | single d =>
    cases c <;> try exact h
    case setKey k =>
      show (d.setKey py3 k).2.Kn = createSubKeys (d.setKey py3 k).2.key
      unfold FDes.setKey
      rw [guard_chars hc.2]
      simp only
      rw [if_neg (by have := hc.1; omega)]
  | triple t =>
    cases c <;> try exact h
    case setKey k =>
      rcases setKey_kn t (guard_chars hc.2) with ⟨v, x, e⟩ | e
      · show KnOK (.triple (t.setKey py3 k).2)
        rw [e]; exact h
      · exact e.1
    case setPadding p =>
      show KnOK (.triple (t.setPadding py3 p).2)
      unfold FTriple.setPadding
      split <;> exact h
    case setIV v =>
      show KnOK (.triple (t.setIV py3 v).2)
      unfold FTriple.setIV
      split
      · exact h
      · rename_i b _
        exact only_kn (setIVs_only py3 { t with base := b } v) h
    case encrypt m p pm => exact only_kn (encrypt_only py3 t m p pm) h
    case decrypt m p pm => exact only_kn (decrypt_only py3 t m p pm) h

theorem run_kn {py3 : Bool} (cs : List CallF) (hc : ∀ c ∈ cs, GoodKey py3 c) : ∀ {o : FObj}, KnOK o → KnOK (o.run py3 cs) := by
  induction cs with
  | nil => intro o h; exact h
  | cons c cs ih => intro o h; exact ih (fun x hx => hc x (by simp [hx])) (call_kn h c (hc c (by simp)))

theorem new_kn {py3 tr : Bool} {key : Data} {mode : Nat} {iv pad : Option Data} {pm : Option Nat} {o : FObj} (h : FObj.new py3 tr key mode iv pad pm = .ok o) : KnOK o := by
  unfold FObj.new at h
  cases tr with
  | false =>
    rw [if_neg (by decide)] at h
    rcases des_new_congr (Same.refl py3 key) mode (SameO.refl py3 iv) (SameO.refl py3 pad) pm with ⟨a, _⟩ | ⟨d, _, a, _, _, _, _, _, hk, _⟩
    · rw [a] at h; cases h
    · rw [a] at h; injection h with h; subst h; exact hk
  | true =>
    rw [if_pos rfl] at h
    unfold FTriple.new at h
    cases hb : FBase.new py3 mode iv pad pm with
    | error e => rw [hb] at h; cases h
    | ok b =>
      rw [hb] at h
      simp only at h
      generalize ht : (⟨b, [], noFDes, noFDes, noFDes⟩ : FTriple) = t at h
      cases hr : (t.setKey py3 key).1 with
      | error e =>
        revert h hr
        generalize t.setKey py3 key = q
        intro h hr
        rcases q with ⟨_ | _, _⟩
        · cases h
        · cases hr
      | ok u =>
        have ho : o = .triple (t.setKey py3 key).2 := by
          revert h hr
          generalize t.setKey py3 key = q
          intro h hr
          rcases q with ⟨_ | _, _⟩
          · cases h
          · injection h with h; exact h.symm
        have hg : key.guard py3 = .ok key.chars := by
          rcases guard_cases py3 key with hg | hg
          · exfalso
            have hin : ∀ t : FTriple, (t.setInner py3 key).1 ≠ .ok () := by
              intro t he
              unfold FTriple.setInner at he
              split at he
              · cases he
              · split at he
                · cases he
                · split at he
                  · cases he
                  · rw [hg] at he; cases he
            unfold FTriple.setKey at hr
            split at hr
            · cases hr
            · simp only at hr
              split at hr
              · split at hr
                · cases hr
                · exact hin _ hr
              · split at hr
                · cases hr
                · exact hin _ hr
          · exact hg
        rcases setKey_kn t hg with ⟨v, x, e⟩ | e
        · rw [e] at hr; cases hr
        · rw [ho]; exact e.1

theorem run_wf {py3 tr : Bool} {key : Data} {mode : Nat} {iv pad : Option Data} {pm : Option Nat} {o : FObj} (h : FObj.new py3 tr key mode iv pad pm = .ok o)
    (cs : List CallF) : Eqv py3 (o.run py3 cs) (o.run py3 cs) := eqv_run cs (new_wf h)

/-- Which class an object is of. -/
def isTriple : FObj → Bool
  | .single _ => false
  | .triple _ => true

theorem run_class {py3 : Bool} (cs : List CallF) : ∀ o : FObj, isTriple (o.run py3 cs) = isTriple o := by
  induction cs with
  | nil => intro o; rfl
  | cons c cs ih =>
    intro o
    show isTriple ((o.call py3 c).2.run py3 cs) = _
    rw [ih]
    cases o <;> rfl

theorem new_class {py3 tr : Bool} {key : Data} {mode : Nat} {iv pad : Option Data} {pm : Option Nat} {o : FObj} (h : FObj.new py3 tr key mode iv pad pm = .ok o) :
    isTriple o = tr := by
  unfold FObj.new at h
  cases tr with
  | false =>
    rw [if_neg (by decide)] at h
    cases hd : FDes.new py3 key mode iv pad pm with
    | error e => rw [hd] at h; cases h
    | ok d => rw [hd] at h; injection h with h; subst h; rfl
  | true =>
    rw [if_pos rfl] at h
    cases hd : FTriple.new py3 key mode iv pad pm with
    | error e => rw [hd] at h; cases h
    | ok d => rw [hd] at h; injection h with h; subst h; rfl

theorem eqv_of {py3 : Bool} {o o' : FObj} (hc : isTriple o = isTriple o') (hb : baseOf o = baseOf o') (hk : keyOf o = keyOf o') (kn : KnOK o) (kn' : KnOK o')
    (w : Eqv py3 o o) (w' : Eqv py3 o' o') : Eqv py3 o o' := by
  refine ⟨?_, hb⟩
  cases o with
  | single d =>
    cases o' with
    | triple t => cases hc
    | single d' =>
      simp only [baseOf, keyOf, KnOK] at hb hk kn kn'
      exact .single ⟨by rw [hb]; exact .refl _ _, hk, by rw [kn, kn', hk]⟩
  | triple t =>
    cases o' with
    | single d => cases hc
    | triple t' =>
      simp only [baseOf, keyOf, KnOK] at hb hk kn kn'
      cases w.1 with
      | triple s =>
        cases w'.1 with
        | triple s' =>
          exact .triple { base := by rw [hb]; exact .refl _ _, key := hk, in1 := s.in1, in2 := s.in2, in3 := s.in3, in1' := s'.in1, in2' := s'.in2, in3' := s'.in3,
                          kn1 := by rw [kn.1, kn'.1, hk], kn2 := by rw [kn.2.1, kn'.2.1, hk], kn3 := by rw [kn.2.2, kn'.2.2, hk] }

theorem getters_eq {py3 : Bool} {o o' : FObj}
    (h : ∀ g ∈ [CallF.getKey, .getMode, .getPadding, .getPadMode, .getIV], (o.call py3 g).1 = (o'.call py3 g).1) : baseOf o = baseOf o' ∧ keyOf o = keyOf o' := by
  have g : ∀ o : FObj, (o.call py3 .getKey).1 = .ok (.data (some (.bytes (keyOf o)))) ∧ (o.call py3 .getMode).1 = .ok (.number (some (baseOf o).mode)) ∧
      (o.call py3 .getPadding).1 = .ok (.data (baseOf o).padding) ∧ (o.call py3 .getPadMode).1 = .ok (.number (baseOf o).padmode) ∧
      (o.call py3 .getIV).1 = .ok (.data (baseOf o).iv) := by
    intro o; cases o <;> exact ⟨rfl, rfl, rfl, rfl, rfl⟩
  obtain ⟨a1, a2, a3, a4, a5⟩ := g o
  obtain ⟨b1, b2, b3, b4, b5⟩ := g o'
  have e1 := h .getKey (by simp)
  have e2 := h .getMode (by simp)
  have e3 := h .getPadding (by simp)
  have e4 := h .getPadMode (by simp)
  have e5 := h .getIV (by simp)
  rw [a1, b1] at e1; rw [a2, b2] at e2; rw [a3, b3] at e3; rw [a4, b4] at e4; rw [a5, b5] at e5
  simp only [Except.ok.injEq, Ret.data.injEq, Ret.number.injEq, Option.some.injEq, Data.bytes.injEq] at e1 e2 e3 e4 e5
  refine ⟨?_, e1⟩
  revert e2 e3 e4 e5
  generalize baseOf o = x; generalize baseOf o' = y
  intro e2 e3 e4 e5
  cases x; cases y; simp only at e2 e3 e4 e5; subst e2 e3 e4 e5; rfl

end DF

/-- C113. Two objects of the same class on which the five getters agree behave alike for ever, however they were made and used before, provided no
`setKey` in between can have stopped half way. -/
theorem C113_getters (py3 tr : Bool) (key key' : Data) (mode mode' : Nat) (iv iv' pad pad' : Option Data) (padmode padmode' : Option Nat) (o o' : FObj)
    (h : FObj.new py3 tr key mode iv pad padmode = .ok o) (h' : FObj.new py3 tr key' mode' iv' pad' padmode' = .ok o')
    (before before' : List CallF) (hb : ∀ c ∈ before, GoodKey py3 c) (hb' : ∀ c ∈ before', GoodKey py3 c)
    (hg : ∀ g ∈ [CallF.getKey, .getMode, .getPadding, .getPadMode, .getIV], ((o.run py3 before).call py3 g).1 = ((o'.run py3 before').call py3 g).1)
    (after : List CallF) : (o.run py3 before).trace py3 after = (o'.run py3 before').trace py3 after := by
  obtain ⟨e1, e2⟩ := DF.getters_eq hg
  refine DF.eqv_trace after (DF.eqv_of ?_ e1 e2 (DF.run_kn before hb (DF.new_kn h)) (DF.run_kn before' hb' (DF.new_kn h')) (DF.run_wf h before) (DF.run_wf h' before'))
  rw [DF.run_class, DF.run_class, DF.new_class h, DF.new_class h']

/-- C113. A key that is too short for `des.setKey` raises IndexError when it is already stored: `getKey` shows it, but everything else goes on as if
the call had not been made. -/
theorem C113_short_key (py3 : Bool) (key : Data) (mode : Nat) (iv pad : Option Data) (padmode : Option Nat) (o : FObj)
    (h : FObj.new py3 false key mode iv pad padmode = .ok o) (before : List CallF) (k : Data) (b : List Nat) (hk : Stands py3 k b) (hl : b.length < 8) :
    ((o.run py3 before).call py3 (.setKey k)).1 = .error .indexError ∧
    (((o.run py3 before).call py3 (.setKey k)).2.call py3 .getKey).1 = .ok (.data (some (.bytes b))) ∧
    ∀ after, .getKey ∉ after → ((o.run py3 before).call py3 (.setKey k)).2.trace py3 after = (o.run py3 before).trace py3 after := by
  have hc : DF.isTriple (o.run py3 before) = false := by rw [DF.run_class, DF.new_class h]
  generalize o.run py3 before = q at hc
  cases q with
  | triple t => cases hc
  | single d =>
    have e : d.setKey py3 k = (.error .indexError, { d with key := b }) := by
      unfold FDes.setKey
      rw [guard_stands hk]
      simp only
      rw [if_pos hl]
    have e1 : (FObj.single d).call py3 (.setKey k) = (.error .indexError, .single { d with key := b }) := by
      show (setterRet (d.setKey py3 k).1, FObj.single (d.setKey py3 k).2) = _
      rw [e]; rfl
    rw [e1]
    refine ⟨rfl, rfl, ?_⟩
    have gen : ∀ (after : List CallF), .getKey ∉ after → ∀ (d : FDes) (b : List Nat),
        (FObj.single { d with key := b }).trace py3 after = (FObj.single d).trace py3 after := by
      intro after
      induction after with
      | nil => intro _ d b; rfl
      | cons c cs ih =>
        intro hn d b
        have hn' : CallF.getKey ∉ cs := fun x => hn (by simp [x])
        have hcr : ∀ m ty, FDes.crypt py3 { d with key := b } m ty = d.crypt py3 m ty := fun m ty => rfl
        show ((FObj.single { d with key := b }).call py3 c).1 :: ((FObj.single { d with key := b }).call py3 c).2.trace py3 cs =
          ((FObj.single d).call py3 c).1 :: ((FObj.single d).call py3 c).2.trace py3 cs
        cases c with
        | setKey k =>
          show setterRet (FDes.setKey py3 { d with key := b } k).1 :: (FObj.single (FDes.setKey py3 { d with key := b } k).2).trace py3 cs =
            setterRet (FDes.setKey py3 d k).1 :: (FObj.single (FDes.setKey py3 d k).2).trace py3 cs
          unfold FDes.setKey
          split
          · simp only; rw [ih hn']
          · split
            · rfl
            · rfl
        | setMode m => exact congrArg _ (ih hn' { d with base := { d.base with mode := m } } b)
        | setPadding m => exact congrArg _ (ih hn' { d with base := (d.base.setPadding py3 m).2 } b)
        | setPadMode m => exact congrArg _ (ih hn' { d with base := { d.base with padmode := m } } b)
        | setIV m => exact congrArg _ (ih hn' { d with base := (d.base.setIV py3 m).2 } b)
        | encrypt m p pm => exact congrArg _ (ih hn' _ b)
        | decrypt m p pm => exact congrArg _ (ih hn' _ b)
        | crypt m ty => exact congrArg _ (ih hn' _ b)
        | getKey => exact (hn (by simp)).elim
        | getMode => exact congrArg _ (ih hn' _ b)
        | getPadding => exact congrArg _ (ih hn' _ b)
        | getPadMode => exact congrArg _ (ih hn' _ b)
        | getIV => exact congrArg _ (ih hn' _ b)
    exact fun after hn => gen after hn d b

/-! ### Text -/

/-- The same argument as bytes. -/
def asBytes (d : Data) : Data := .bytes d.chars

/-- The same call with bytes for text. -/
def CallF.asBytes : CallF → CallF
  | .setKey k => .setKey (Props.asBytes k)
  | .setPadding p => .setPadding (p.map Props.asBytes)
  | .setIV v => .setIV (v.map Props.asBytes)
  | .encrypt m p pm => .encrypt (Props.asBytes m) (p.map Props.asBytes) pm
  | .decrypt m p pm => .decrypt (Props.asBytes m) (p.map Props.asBytes) pm
  | c => c

/-- The string arguments of a call. -/
def CallF.strings : CallF → List Data
  | .setKey k => [k]
  | .setPadding p => p.toList
  | .setIV v => v.toList
  | .encrypt m p _ => m :: p.toList
  | .decrypt m p _ => m :: p.toList
  | _ => []

/-- An outcome with bytes for text. -/
def retBytes : Except Err Ret → Except Err Ret
  | .ok (.data (some d)) => .ok (.data (some (asBytes d)))
  | r => r

namespace DF

theorem same_bytes {py3 : Bool} {d : Data} (h : ∃ b, Stands py3 d b) : Same py3 d (asBytes d) := ⟨rfl, guard_chars h⟩

theorem same_bytesO {py3 : Bool} {d : Option Data} (h : ∀ x ∈ d.toList, ∃ b, Stands py3 x b) : SameO py3 d (d.map asBytes) := by
  cases d with
  | none => exact trivial
  | some x => exact same_bytes (h x (by simp))

theorem callSame_bytes {py3 : Bool} {c : CallF} (h : ∀ x ∈ CallF.strings c, ∃ b, Stands py3 x b) : CallSame py3 c (CallF.asBytes c) := by
  cases c with
  | setKey k => exact .setKey (same_bytes (h k (by simp [CallF.strings])))
  | setMode m => exact .setMode m
  | setPadding p => exact .setPadding (same_bytesO h)
  | setPadMode m => exact .setPadMode m
  | setIV v => exact .setIV (same_bytesO h)
  | encrypt m p pm => exact .encrypt (same_bytes (h m (by simp [CallF.strings]))) (same_bytesO (fun x hx => h x (List.mem_cons_of_mem _ hx))) pm
  | decrypt m p pm => exact .decrypt (same_bytes (h m (by simp [CallF.strings]))) (same_bytesO (fun x hx => h x (List.mem_cons_of_mem _ hx))) pm
  | crypt m t => exact .crypt m t
  | getKey => exact .getKey
  | getMode => exact .getMode
  | getPadding => exact .getPadding
  | getPadMode => exact .getPadMode
  | getIV => exact .getIV

theorem retSame_bytes {py3 : Bool} {r r' : Except Err Ret} (h : RetSame py3 r r') : retBytes r = retBytes r' := by
  rcases h with rfl | ⟨x, y, rfl, rfl, h⟩
  · rfl
  · cases x <;> cases y <;> first | rfl | exact h.elim | skip
    rename_i x y
    show Except.ok (Ret.data (some (asBytes x))) = Except.ok (Ret.data (some (asBytes y)))
    unfold asBytes
    rw [h.1]

theorem text_trace {py3 : Bool} (cs : List CallF) (hs : ∀ c ∈ cs, ∀ x ∈ CallF.strings c, ∃ b, Stands py3 x b) : ∀ {o o' : FObj}, Sim py3 o o' →
    (o.trace py3 cs).map retBytes = (o'.trace py3 (cs.map CallF.asBytes)).map retBytes ∧
    ∀ (i : Nat) (c : CallF), cs[i]? = some c → c ≠ .getPadding → c ≠ .getIV → (o.trace py3 cs)[i]? = (o'.trace py3 (cs.map CallF.asBytes))[i]? := by
  induction cs with
  | nil => intro o o' _; exact ⟨rfl, fun i c h => by simp at h⟩
  | cons c cs ih =>
    intro o o' h
    obtain ⟨a, b, e⟩ := call_congr h (callSame_bytes (hs c (by simp)))
    obtain ⟨i1, i2⟩ := ih (fun x hx => hs x (by simp [hx])) b
    refine ⟨?_, ?_⟩
    · show retBytes _ :: _ = retBytes _ :: _
      rw [retSame_bytes a]
      exact congrArg _ i1
    · intro i x hx h1 h2
      cases i with
      | zero =>
        simp only [List.getElem?_cons_zero, Option.some.injEq] at hx
        subst hx
        exact congrArg some (e h1 h2)
      | succ i =>
        simp only [List.getElem?_cons_succ] at hx
        exact i2 i x hx h1 h2

end DF

/-- C113. Text that can be used (on Python 3, ASCII) is as good as the bytes it stands for, in the constructor and in every call: the constructor
fails in both cases or in none, and every later call gives back or raises the same, except that `getIV` and `getPadding` may show text where
they would show bytes. -/
theorem C113_text (py3 tr : Bool) (key : Data) (mode : Nat) (iv pad : Option Data) (padmode : Option Nat)
    (h : ∀ x ∈ key :: (iv.toList ++ pad.toList), ∃ b, Stands py3 x b) :
    (FObj.new py3 tr key mode iv pad padmode = .error .valueError ∧
      FObj.new py3 tr (asBytes key) mode (iv.map asBytes) (pad.map asBytes) padmode = .error .valueError) ∨
    ∃ o o', FObj.new py3 tr key mode iv pad padmode = .ok o ∧ FObj.new py3 tr (asBytes key) mode (iv.map asBytes) (pad.map asBytes) padmode = .ok o' ∧
      ∀ calls : List CallF, (∀ c ∈ calls, ∀ x ∈ CallF.strings c, ∃ b, Stands py3 x b) →
        (o.trace py3 calls).map retBytes = (o'.trace py3 (calls.map CallF.asBytes)).map retBytes ∧
        ∀ (i : Nat) (c : CallF), calls[i]? = some c → c ≠ .getPadding → c ≠ .getIV → (o.trace py3 calls)[i]? = (o'.trace py3 (calls.map CallF.asBytes))[i]? := by
  rcases DF.new_sim (tr := tr) (mode := mode) (pm := padmode) (DF.same_bytes (h key (by simp)))
      (DF.same_bytesO (d := iv) (fun x hx => h x (by simp at hx; simp [hx]))) (DF.same_bytesO (d := pad) (fun x hx => h x (by simp at hx; simp [hx]))) with h | ⟨o, o', a, b, hs⟩
  · exact .inl h
  · exact .inr ⟨o, o', a, b, fun calls hc => DF.text_trace calls hc hs⟩

/-- C113. Text that cannot be used makes the call raise ValueError and change nothing (`setKey` of `triple_des` apart, see C85). -/
theorem C113_unusable (py3 : Bool) (o : FObj) (c : CallF) (h : ∃ x ∈ CallF.strings c, Unusable py3 x) (hc : ∀ k t, c = .setKey k → o ≠ .triple t) :
    o.call py3 c = (.error .valueError, o) := by
  obtain ⟨x, hx, hu⟩ := h
  have hg := guard_unusable hu
  have hs : ∀ p : Option Data, x ∈ p.toList → guardSome py3 p = .error .valueError := by
    intro p hp
    cases p with
    | none => simp at hp
    | some p =>
      simp at hp; subst hp
      show (match x.guard py3 with | .error e => _ | .ok b => _) = _
      rw [hg]
  have hsp : ∀ (b : FBase) p, x ∈ p.toList → b.setPadding py3 p = (.error .valueError, b) := by
    intro b p hp; unfold FBase.setPadding; rw [hs p hp]
  have hsi : ∀ (b : FBase) p, x ∈ p.toList → b.setIV py3 p = (.error .valueError, b) := by
    intro b p hp
    rw [DF.setIVb_eq]
    cases p with
    | none => simp at hp
    | some p =>
      simp at hp; subst hp
      have : DF.ivOf py3 (some x) = none := by
        show (if x.chars.length = 8 then (match x.guard py3 with | .ok v => some v | .error _ => none) else none) = none
        rw [hg]; split <;> rfl
      rw [this]
  cases o with
  | single d =>
    cases c with
    | setKey k =>
      simp [CallF.strings] at hx; subst hx
      show (setterRet (d.setKey py3 x).1, FObj.single (d.setKey py3 x).2) = _
      unfold FDes.setKey; rw [hg]; rfl
    | setPadding p =>
      show (setterRet (d.base.setPadding py3 p).1, FObj.single { d with base := (d.base.setPadding py3 p).2 }) = _
      rw [hsp _ p hx]; rfl
    | setIV p =>
      show (setterRet (d.base.setIV py3 p).1, FObj.single { d with base := (d.base.setIV py3 p).2 }) = _
      rw [hsi _ p hx]; rfl
    | encrypt m p pm =>
      show (dataRet (d.encrypt py3 m p pm), FObj.single d) = _
      unfold FDes.encrypt
      rcases List.mem_cons.1 hx with rfl | hx
      · rw [hg]; rfl
      · rcases DF.guard_cases py3 m with e | e
        · rw [e]; rfl
        · rw [e, hs p hx]; rfl
    | decrypt m p pm =>
      show (dataRet (d.decrypt py3 m p pm), FObj.single d) = _
      unfold FDes.decrypt
      rcases List.mem_cons.1 hx with rfl | hx
      · rw [hg]; rfl
      · rcases DF.guard_cases py3 m with e | e
        · rw [e]; rfl
        · rw [e, hs p hx]; rfl
    | _ => simp [CallF.strings] at hx
  | triple d =>
    cases c with
    | setKey k => exact (hc k d rfl rfl).elim
    | setPadding p =>
      show (setterRet (d.setPadding py3 p).1, FObj.triple (d.setPadding py3 p).2) = _
      unfold FTriple.setPadding
      rw [hsp _ p hx]; rfl
    | setIV p =>
      show (setterRet (d.setIV py3 p).1, FObj.triple (d.setIV py3 p).2) = _
      unfold FTriple.setIV
      rw [hsi _ p hx]; rfl
    | encrypt m p pm =>
      show (dataRet (d.encrypt py3 m p pm).1, FObj.triple (d.encrypt py3 m p pm).2) = _
      unfold FTriple.encrypt
      rcases List.mem_cons.1 hx with rfl | hx
      · rw [hg]; rfl
      · rcases DF.guard_cases py3 m with e | e
        · rw [e]; rfl
        · rw [e, hs p hx]; rfl
    | decrypt m p pm =>
      show (dataRet (d.decrypt py3 m p pm).1, FObj.triple (d.decrypt py3 m p pm).2) = _
      unfold FTriple.decrypt
      rcases List.mem_cons.1 hx with rfl | hx
      · rw [hg]; rfl
      · rcases DF.guard_cases py3 m with e | e
        · rw [e]; rfl
        · rw [e, hs p hx]; rfl
    | _ => simp [CallF.strings] at hx

/-! ### The standard -/

/-- The block cipher of a class with a stored key, FIPS 46-3: DES, or triple DES with two or three keys. -/
def blockEnc (tr : Bool) (k : List Nat) : List Nat → List Nat :=
  if tr then encipher3 (k.take 8) ((k.drop 8).take 8) (if k.length = 16 then k.take 8 else (k.drop 16).take 8) else encipher k
/-- Its inverse. -/
def blockDec (tr : Bool) (k : List Nat) : List Nat → List Nat :=
  if tr then decipher3 (k.take 8) ((k.drop 8).take 8) (if k.length = 16 then k.take 8 else (k.drop 16).take 8) else decipher k

namespace DF

/-- A single object without its padding, in the model for bytes. -/
def plainF (d : FDes) : Des := ⟨⟨d.base.mode, optChars d.base.iv, none, 1⟩, d.Kn⟩

theorem loopT (Kn : List PyDes.Bits) (e cbc : Bool) (bs : List PyDes.Bits) : ∀ iv, cryptLoopT Kn (if e then 0 else 1) cbc iv bs = cryptLoop Kn e cbc iv bs := by
  induction bs with
  | nil => intro iv; rfl
  | cons b bs ih =>
    intro iv
    cases e <;> cases cbc <;> simp_all [cryptLoopT, cryptLoop]

theorem crypt_aligned (py3 : Bool) (d : FDes) (m : List Nat) (e : Bool) (h : m.length % 8 = 0) : d.crypt py3 m (if e then 0 else 1) = (plainF d).crypt m e := by
  unfold FDes.crypt Des.crypt plainF
  by_cases hm : m = []
  · rw [if_pos hm, if_pos hm]
  rw [if_neg hm, if_neg hm]
  simp only
  rw [if_neg (show ¬ (m.length % 8 ≠ 0) by omega), if_neg (show ¬ (m.length % 8 ≠ 0) by omega)]
  simp only
  rw [if_neg (show ¬ (m.length % 8 ≠ 0) by omega), loopT]

theorem cryptF_enc (py3 : Bool) (d : FDes) (k v x : List Nat) (hm : d.base.mode = CBC) (hk : d.Kn = createSubKeys k) (hv : IsBlock v) (hx : x.length = 8) :
    (withIV d v).crypt py3 x 0 = .ok (encipher k (xorBytes x v)) := by
  have := crypt_aligned py3 (withIV d v) x true (by omega)
  rw [show (if true = true then 0 else 1) = 0 from rfl] at this
  rw [this]
  exact crypt1_enc (plainF d) k v x hm hk hv hx

theorem cryptF_dec (py3 : Bool) (d : FDes) (k v x : List Nat) (hm : d.base.mode = CBC) (hk : d.Kn = createSubKeys k) (hv : IsBlock v) (hx : IsBlock x) :
    (withIV d v).crypt py3 x 1 = .ok (xorBytes (decipher k x) v) := by
  have := crypt_aligned py3 (withIV d v) x false (by have := hx.1; omega)
  rw [show (if false = true then 0 else 1) = 1 from rfl] at this
  rw [this]
  exact crypt1_dec (plainF d) k v x hm hk hv hx

theorem cryptF_ecb (py3 : Bool) (d : FDes) (k : List Nat) (hm : d.base.mode ≠ CBC) (hk : d.Kn = createSubKeys k) (e : Bool) (bs : List (List Nat)) (hb : ∀ b ∈ bs, b.length = 8) :
    d.crypt py3 bs.flatten (if e then 0 else 1) = .ok (ecb (if e then encipher k else decipher k) bs).flatten := by
  rw [crypt_aligned py3 d _ e (by rw [flatten_length8 bs hb]; omega), crypt_ecb (plainF d) hm e bs hb]
  have : (plainF d).Kn = createSubKeys k := hk
  rw [this]
  cases e
  · rw [dec_eq]; rfl
  · rw [enc_eq]; rfl

/-- The triple object has these subkeys and uniform modes. -/
structure LikeF (t : FTriple) (k1 k2 k3 : List Nat) : Prop where
  m1 : t.key1.base.mode = t.base.mode
  m2 : t.key2.base.mode = t.base.mode
  m3 : t.key3.base.mode = t.base.mode
  kn1 : t.key1.Kn = createSubKeys k1
  kn2 : t.key2.Kn = createSubKeys k2
  kn3 : t.key3.Kn = createSubKeys k3

theorem setIVs_block (py3 : Bool) (t : FTriple) (x : Option Data) (v : List Nat) (hx : ∃ d, x = some d ∧ Stands py3 d v) (hv : v.length = 8) :
    t.setIVs py3 x = (.ok (), withIVs t v) := by
  obtain ⟨d, rfl, hd⟩ := hx
  rw [setIVs_eq]
  have : ivOf py3 (some d) = some v := by
    show (if d.chars.length = 8 then (match d.guard py3 with | .ok v => some v | .error _ => none) else none) = some v
    rw [chars_stands hd, guard_stands hd, if_pos hv]
  rw [this]

theorem encLoopF (py3 : Bool) (k1 k2 k3 : List Nat) (bs : List (List Nat)) (hb : ∀ x ∈ bs, IsBlock x) (t : FTriple) (hm : t.base.mode = CBC) (h : LikeF t k1 k2 k3) :
    ∀ v, IsBlock v → ∃ t', (withIVs t v).encLoop py3 bs = (.ok (cbcEncrypt (encipher3 k1 k2 k3) v bs).flatten, t') := by
  induction bs with
  | nil => intro v _; exact ⟨_, rfl⟩
  | cons x xs ih =>
    intro v hv
    have hx := hb x (by simp)
    have hE : IsBlock (encipher3 k1 k2 k3 (xorBytes x v)) := encipher3_block _ _ _ _
    obtain ⟨t', ht'⟩ := ih (fun c hc => hb c (by simp [hc])) _ hE
    refine ⟨t', ?_⟩
    unfold FTriple.encLoop
    have hd := decipher_block k2 (encipher k1 (xorBytes x v))
    have e : crypt3 py3 (withIVs t v).key1 (withIVs t v).key2 (withIVs t v).key3 0 x = .ok (encipher3 k1 k2 k3 (xorBytes x v)) := by
      unfold crypt3
      rw [show (withIVs t v).key1 = withIV t.key1 v from rfl, show (withIVs t v).key2 = withIV t.key2 v from rfl, show (withIVs t v).key3 = withIV t.key3 v from rfl]
      rw [cryptF_enc py3 t.key1 k1 v x (h.m1.trans hm) h.kn1 hv hx.1]
      simp only
      rw [cryptF_dec py3 t.key2 k2 v _ (h.m2.trans hm) h.kn2 hv (encipher_block _ _)]
      simp only
      rw [cryptF_enc py3 t.key3 k3 v _ (h.m3.trans hm) h.kn3 hv (xorBytes_block _ _ hd hv).1, xorBytes_cancel _ _ (by rw [hd.1, hv.1])]
      rfl
    rw [e]
    simp only
    rw [setIVs_block py3 (withIVs t v) _ _ ⟨_, rfl, .inl rfl⟩ hE.1]
    simp only
    rw [show DF.withIVs (DF.withIVs t v) (encipher3 k1 k2 k3 (xorBytes x v)) = DF.withIVs t (encipher3 k1 k2 k3 (xorBytes x v)) from rfl, ht']
    rfl

theorem decLoopF (py3 : Bool) (k1 k2 k3 : List Nat) (bs : List (List Nat)) (hb : ∀ x ∈ bs, IsBlock x) (t : FTriple) (hm : t.base.mode = CBC) (h : LikeF t k1 k2 k3) :
    ∀ v, IsBlock v → ∃ t', (withIVs t v).decLoop py3 bs = (.ok (cbcDecrypt (decipher3 k1 k2 k3) v bs).flatten, t') := by
  induction bs with
  | nil => intro v _; exact ⟨_, rfl⟩
  | cons x xs ih =>
    intro v hv
    have hx := hb x (by simp)
    obtain ⟨t', ht'⟩ := ih (fun c hc => hb c (by simp [hc])) _ hx
    refine ⟨t', ?_⟩
    unfold FTriple.decLoop
    have hd := decipher_block k3 x
    have e : crypt3 py3 (withIVs t v).key3 (withIVs t v).key2 (withIVs t v).key1 1 x = .ok (xorBytes (decipher3 k1 k2 k3 x) v) := by
      unfold crypt3
      rw [show (withIVs t v).key1 = withIV t.key1 v from rfl, show (withIVs t v).key2 = withIV t.key2 v from rfl, show (withIVs t v).key3 = withIV t.key3 v from rfl]
      rw [cryptF_dec py3 t.key3 k3 v x (h.m3.trans hm) h.kn3 hv hx]
      simp only
      rw [show 1 - 1 = 0 from rfl, cryptF_enc py3 t.key2 k2 v _ (h.m2.trans hm) h.kn2 hv (xorBytes_block _ _ hd hv).1, xorBytes_cancel _ _ (by rw [hd.1, hv.1])]
      simp only
      rw [cryptF_dec py3 t.key1 k1 v _ (h.m1.trans hm) h.kn1 hv (encipher_block _ _)]
      rfl
    rw [e]
    simp only
    rw [setIVs_block py3 (withIVs t v) _ _ ⟨_, rfl, .inl rfl⟩ hx.1]
    simp only
    rw [show DF.withIVs (DF.withIVs t v) x = DF.withIVs t x from rfl, ht']
    rfl

theorem ecb3 (py3 : Bool) (k1 k2 k3 : List Nat) (bs : List (List Nat)) (hb : ∀ x ∈ bs, IsBlock x) (t : FTriple) (hm : t.base.mode ≠ CBC) (h : LikeF t k1 k2 k3) :
    crypt3 py3 t.key1 t.key2 t.key3 0 bs.flatten = .ok (ecb (encipher3 k1 k2 k3) bs).flatten ∧
    crypt3 py3 t.key3 t.key2 t.key1 1 bs.flatten = .ok (ecb (decipher3 k1 k2 k3) bs).flatten := by
  constructor
  · unfold crypt3
    obtain ⟨g1, _⟩ := ecb_blocks (encipher k1) (fun x _ => encipher_block k1 x) bs hb
    obtain ⟨g2, _⟩ := ecb_blocks (decipher k2) (fun x _ => decipher_block k2 x) _ g1
    have e1 := cryptF_ecb py3 t.key1 k1 (by rw [h.m1]; exact hm) h.kn1 true bs (fun b h => (hb b h).1)
    have e2 := cryptF_ecb py3 t.key2 k2 (by rw [h.m2]; exact hm) h.kn2 false _ (fun b h => (g1 b h).1)
    have e3 := cryptF_ecb py3 t.key3 k3 (by rw [h.m3]; exact hm) h.kn3 true _ (fun b h => (g2 b h).1)
    simp only [if_true, Bool.false_eq_true, if_false] at e1 e2 e3
    rw [e1]; simp only; rw [e2]; simp only; rw [e3]
    simp [ecb, List.map_map, Function.comp_def]; rfl
  · unfold crypt3
    obtain ⟨g1, _⟩ := ecb_blocks (decipher k3) (fun x _ => decipher_block k3 x) bs hb
    obtain ⟨g2, _⟩ := ecb_blocks (encipher k2) (fun x _ => encipher_block k2 x) _ g1
    have e1 := cryptF_ecb py3 t.key3 k3 (by rw [h.m3]; exact hm) h.kn3 false bs (fun b h => (hb b h).1)
    have e2 := cryptF_ecb py3 t.key2 k2 (by rw [h.m2]; exact hm) h.kn2 true _ (fun b h => (g1 b h).1)
    have e3 := cryptF_ecb py3 t.key1 k1 (by rw [h.m1]; exact hm) h.kn1 false _ (fun b h => (g2 b h).1)
    simp only [if_true, Bool.false_eq_true, if_false] at e1 e2 e3
    rw [e1]; simp only; rw [show 1 - 1 = 0 from rfl, e2]; simp only; rw [e3]
    simp [ecb, List.map_map, Function.comp_def]; rfl

theorem likeF {py3 : Bool} {t : FTriple} (w : Eqv py3 (.triple t) (.triple t)) (kn : KnOK (.triple t)) :
    LikeF t (t.key.take 8) ((t.key.drop 8).take 8) (if t.key.length = 16 then t.key.take 8 else (t.key.drop 16).take 8) := by
  cases w.1 with
  | triple s => exact ⟨s.in1.1, s.in2.1, s.in3.1, kn.1, kn.2.1, kn.2.2⟩

theorem padData_whole (b : FBase) (hp : b.padmode ≠ some 2) (m : List Nat) (hm : m.length % 8 = 0) : b.padData m none none = .ok m := by
  unfold FBase.padData
  simp only [optChars]
  rw [if_neg (fun h => h.1 rfl), show (none <|> b.padmode) = b.padmode from rfl]
  by_cases h1 : b.padmode = some PAD_NORMAL
  · rw [if_pos h1, if_pos hm]
  · rw [if_neg h1, if_neg (show ¬ b.padmode = some PAD_PKCS5 from hp)]

theorem unpadData_whole (b : FBase) (hp : b.padmode ≠ some 2) (hn : optChars b.padding = []) (m : List Nat) : b.unpadData m none none = .ok m := by
  unfold FBase.unpadData
  simp only [optChars]
  rw [if_neg (fun h => h.1 rfl), show (none <|> b.padmode) = b.padmode from rfl]
  by_cases h1 : b.padmode = some PAD_NORMAL
  · rw [if_pos h1]
    show (if optChars b.padding = [] then _ else _) = _
    rw [if_pos hn]
  · rw [if_neg h1, if_neg (show ¬ b.padmode = some PAD_PKCS5 from hp)]

theorem unpadF_whole (b : FBase) (hp : b.padmode ≠ some 2) (hn : optChars b.padding = []) (em : Data) (he : em.chars = []) (r : List Nat) :
    ∃ d, unpadF b em r none none = .ok d ∧ d.chars = r := by
  unfold unpadF
  by_cases hr : r = []
  · rw [if_pos hr]; exact ⟨em, rfl, by rw [he, hr]⟩
  · rw [if_neg hr, unpadData_whole b hp hn]; exact ⟨_, rfl, rfl⟩

theorem single_crypt_cbc (py3 : Bool) (d : FDes) (k v : List Nat) (hm : d.base.mode = CBC) (hi : optChars d.base.iv = v) (hv : IsBlock v) (hk : d.Kn = createSubKeys k)
    (bs : List (List Nat)) (hb : ∀ x ∈ bs, IsBlock x) :
    d.crypt py3 bs.flatten 0 = .ok (cbcEncrypt (encipher k) v bs).flatten ∧ d.crypt py3 bs.flatten 1 = .ok (cbcDecrypt (decipher k) v bs).flatten := by
  have h8 : bs.flatten.length % 8 = 0 := flatten_mod8 bs hb
  have hb8 : ∀ x ∈ bs, x.length = 8 := fun x hx => (hb x hx).1
  have hk' : (plainF d).Kn = createSubKeys k := hk
  have hi' : (plainF d).base.iv = v := hi
  constructor
  · have := crypt_aligned py3 d _ true h8
    rw [show (if true = true then 0 else 1) = 0 from rfl] at this
    rw [this, crypt_cbc_enc (plainF d) hm (by rw [hi']; exact iv_block_ne v hv) bs hb8, hk', hi', enc_eq]
  · have := crypt_aligned py3 d _ false h8
    rw [show (if false = true then 0 else 1) = 1 from rfl] at this
    rw [this, crypt_cbc_dec (plainF d) hm (by rw [hi']; exact hv) bs hb, hk', hi', dec_eq]

end DF

/-- C113. Whatever was called before, a message of whole blocks is enciphered and deciphered as FIPS 46-3 and the mode shown by `getMode` prescribe
(everything but 1 is ECB), with the key shown by `getKey` and the initial vector shown by `getIV`, if no padding is set. -/
theorem C113_standard (py3 tr : Bool) (key : Data) (mode : Nat) (iv pad : Option Data) (padmode : Option Nat) (o : FObj)
    (h : FObj.new py3 tr key mode iv pad padmode = .ok o) (before : List CallF) (hb : ∀ c ∈ before, GoodKey py3 c)
    (k : List Nat) (m : Nat) (p v : Option Data) (pm : Option Nat) (b : List Nat)
    (hk : ((o.run py3 before).call py3 .getKey).1 = .ok (.data (some (.bytes k)))) (hm : ((o.run py3 before).call py3 .getMode).1 = .ok (.number (some m)))
    (hp : ((o.run py3 before).call py3 .getPadding).1 = .ok (.data p)) (hpm : ((o.run py3 before).call py3 .getPadMode).1 = .ok (.number pm))
    (hv : ((o.run py3 before).call py3 .getIV).1 = .ok (.data v)) (hiv : m = 1 → IsBlock b ∧ ∃ d, v = some d ∧ Stands py3 d b) (h2 : pm ≠ some 2)
    (bs : List (List Nat)) (hbs : ∀ x ∈ bs, IsBlock x) :
    retBytes ((o.run py3 before).call py3 (.encrypt (.bytes bs.flatten) none none)).1 =
      .ok (.data (some (.bytes (if m = 1 then cbcEncrypt (blockEnc tr k) b bs else ecb (blockEnc tr k) bs).flatten))) ∧
    (optChars p = [] → retBytes ((o.run py3 before).call py3 (.decrypt (.bytes bs.flatten) none none)).1 =
      .ok (.data (some (.bytes (if m = 1 then cbcDecrypt (blockDec tr k) b bs else ecb (blockDec tr k) bs).flatten)))) := by
  have hc : DF.isTriple (o.run py3 before) = tr := by rw [DF.run_class, DF.new_class h]
  have kn := DF.run_kn before hb (DF.new_kn h)
  have w := DF.run_wf h before
  revert hc kn w hk hm hp hpm hv
  generalize o.run py3 before = q
  intro hk hm hp hpm hv hc kn w
  have h8 : bs.flatten.length % 8 = 0 := flatten_mod8 bs hbs
  have hb8 : ∀ x ∈ bs, x.length = 8 := fun x hx => (hbs x hx).1
  have hret : ∀ (x : Data) (r : List Nat), x.chars = r → retBytes (dataRet (.ok x)) = .ok (.data (some (.bytes r))) := by
    intro x r hx; show Except.ok (Ret.data (some (asBytes x))) = _; unfold asBytes; rw [hx]
  cases q with
  | single d =>
    change false = tr at hc; subst hc
    have hk : d.key = k := by simpa [FObj.call, FDes.call] using hk
    have hm : d.base.mode = m := by simpa [FObj.call, FDes.call] using hm
    have hp : d.base.padding = p := by simpa [FObj.call, FDes.call] using hp
    have hpm : d.base.padmode = pm := by simpa [FObj.call, FDes.call] using hpm
    have hv : d.base.iv = v := by simpa [FObj.call, FDes.call] using hv
    have kn : d.Kn = createSubKeys k := by rw [← hk]; exact kn
    have hF : blockEnc false k = encipher k ∧ blockDec false k = decipher k := ⟨rfl, rfl⟩
    rw [hF.1, hF.2]
    have crypts : d.crypt py3 bs.flatten 0 = .ok (if m = 1 then cbcEncrypt (encipher k) b bs else ecb (encipher k) bs).flatten ∧
        d.crypt py3 bs.flatten 1 = .ok (if m = 1 then cbcDecrypt (decipher k) b bs else ecb (decipher k) bs).flatten := by
      by_cases h1 : m = 1
      · obtain ⟨hbl, x, hx, hxb⟩ := hiv h1
        rw [if_pos h1, if_pos h1]
        exact DF.single_crypt_cbc py3 d k b (hm.trans h1) (by rw [hv, hx]; exact chars_stands hxb) hbl kn bs hbs
      · rw [if_neg h1, if_neg h1]
        have hne : d.base.mode ≠ CBC := by rw [hm]; exact h1
        exact ⟨DF.cryptF_ecb py3 d k hne kn true bs hb8, DF.cryptF_ecb py3 d k hne kn false bs hb8⟩
    constructor
    · show retBytes (dataRet (d.encrypt py3 (.bytes bs.flatten) none none)) = _
      unfold FDes.encrypt
      simp only [Data.guard, guardSome]
      rw [DF.padData_whole d.base (by rw [hpm]; exact h2) _ h8]
      simp only
      rw [crypts.1]
      exact hret _ _ (resultT_chars _ _)
    · intro hn
      show retBytes (dataRet (d.decrypt py3 (.bytes bs.flatten) none none)) = _
      unfold FDes.decrypt
      simp only [Data.guard, guardSome]
      rw [crypts.2]
      generalize (if m = 1 then cbcDecrypt (decipher k) b bs else ecb (decipher k) bs).flatten = r
      simp only
      by_cases e : r = []
      · rw [if_pos e, e]; exact hret _ _ (resultT_chars _ _)
      · rw [if_neg e, DF.unpadData_whole d.base (by rw [hpm]; exact h2) (by rw [hp]; exact hn)]
        exact hret _ _ rfl
  | triple t =>
    change true = tr at hc; subst hc
    have hk : t.key = k := by simpa [FObj.call, FTriple.call] using hk
    have hm : t.base.mode = m := by simpa [FObj.call, FTriple.call] using hm
    have hp : t.base.padding = p := by simpa [FObj.call, FTriple.call] using hp
    have hpm : t.base.padmode = pm := by simpa [FObj.call, FTriple.call] using hpm
    have hv : t.base.iv = v := by simpa [FObj.call, FTriple.call] using hv
    have hl := DF.likeF w kn
    rw [hk] at hl
    have hF : blockEnc true k = encipher3 (k.take 8) ((k.drop 8).take 8) (if k.length = 16 then k.take 8 else (k.drop 16).take 8) ∧
        blockDec true k = decipher3 (k.take 8) ((k.drop 8).take 8) (if k.length = 16 then k.take 8 else (k.drop 16).take 8) := ⟨rfl, rfl⟩
    rw [hF.1, hF.2]
    constructor
    · show retBytes (dataRet (t.encrypt py3 (.bytes bs.flatten) none none).1) = _
      unfold FTriple.encrypt
      simp only [Data.guard, guardSome]
      rw [DF.padData_whole t.base (by rw [hpm]; exact h2) _ h8]
      simp only
      by_cases h1 : m = 1
      · obtain ⟨hbl, x, hx, hxb⟩ := hiv h1
        rw [if_pos (show t.base.mode = CBC from hm.trans h1), if_pos h1, DF.setIVs_block py3 t _ b ⟨x, by rw [hv, hx], hxb⟩ hbl.1]
        simp only
        obtain ⟨t', ht'⟩ := DF.encLoopF py3 _ _ _ bs hbs t (hm.trans h1) hl b hbl
        rw [blocks_flatten bs hb8, ht']
        exact hret _ _ rfl
      · have hne : t.base.mode ≠ CBC := by rw [hm]; exact h1
        rw [if_neg hne, if_neg h1, (DF.ecb3 py3 _ _ _ bs hbs t hne hl).1]
        exact hret _ _ (resultT_chars _ _)
    · intro hn
      show retBytes (dataRet (t.decrypt py3 (.bytes bs.flatten) none none).1) = _
      unfold FTriple.decrypt
      simp only [Data.guard, guardSome]
      by_cases h1 : m = 1
      · obtain ⟨hbl, x, hx, hxb⟩ := hiv h1
        rw [if_pos (show t.base.mode = CBC from hm.trans h1), if_pos h1, DF.setIVs_block py3 t _ b ⟨x, by rw [hv, hx], hxb⟩ hbl.1]
        simp only
        have hbase := (DF.decLoop_only py3 bs (DF.withIVs t b)).base
        obtain ⟨t', ht'⟩ := DF.decLoopF py3 _ _ _ bs hbs t (hm.trans h1) hl b hbl
        rw [ht'] at hbase
        have hbase : t'.base = t.base := hbase
        rw [blocks_flatten bs hb8, ht']
        simp only
        obtain ⟨x, e, hx⟩ := DF.unpadF_whole t'.base (by rw [hbase, hpm]; exact h2) (by rw [hbase, hp]; exact hn) (.bytes []) rfl
          (cbcDecrypt (decipher3 (k.take 8) ((k.drop 8).take 8) (if k.length = 16 then k.take 8 else (k.drop 16).take 8)) b bs).flatten
        rw [e]
        exact hret _ _ hx
      · have hne : t.base.mode ≠ CBC := by rw [hm]; exact h1
        rw [if_neg hne, if_neg h1, (DF.ecb3 py3 _ _ _ bs hbs t hne hl).2]
        simp only
        obtain ⟨x, e, hx⟩ := DF.unpadF_whole t.base (by rw [hpm]; exact h2) (by rw [hp]; exact hn) (resultT py3 []) (resultT_chars _ _)
          (ecb (decipher3 (k.take 8) ((k.drop 8).take 8) (if k.length = 16 then k.take 8 else (k.drop 16).take 8)) bs).flatten
        rw [e]
        exact hret _ _ hx

/-- C113. The public `crypt` of `des` with 0 enciphers, with 1 deciphers, in the mode that is set; with any other number it deciphers block by block
in every mode, without chaining. -/
theorem C113_crypt (py3 : Bool) (key : Data) (mode : Nat) (iv pad : Option Data) (padmode : Option Nat) (o : FObj)
    (h : FObj.new py3 false key mode iv pad padmode = .ok o) (before : List CallF) (hb : ∀ c ∈ before, GoodKey py3 c)
    (k : List Nat) (m : Nat) (v : Option Data) (b : List Nat) (type : Nat)
    (hk : ((o.run py3 before).call py3 .getKey).1 = .ok (.data (some (.bytes k)))) (hm : ((o.run py3 before).call py3 .getMode).1 = .ok (.number (some m)))
    (hv : ((o.run py3 before).call py3 .getIV).1 = .ok (.data v)) (hiv : m = 1 → IsBlock b ∧ ∃ d, v = some d ∧ Stands py3 d b)
    (bs : List (List Nat)) (hbs : ∀ x ∈ bs, IsBlock x) :
    retBytes ((o.run py3 before).call py3 (.crypt bs.flatten type)).1 =
      .ok (.data (some (.bytes (if type = 0 then (if m = 1 then cbcEncrypt (encipher k) b bs else ecb (encipher k) bs)
        else if type = 1 then (if m = 1 then cbcDecrypt (decipher k) b bs else ecb (decipher k) bs)
        else ecb (decipher k) bs).flatten))) := by
  have hc : DF.isTriple (o.run py3 before) = false := by rw [DF.run_class, DF.new_class h]
  have kn := DF.run_kn before hb (DF.new_kn h)
  revert hc kn hk hm hv
  generalize o.run py3 before = q
  intro hk hm hv hc kn
  have h8 : bs.flatten.length % 8 = 0 := flatten_mod8 bs hbs
  have hb8 : ∀ x ∈ bs, x.length = 8 := fun x hx => (hbs x hx).1
  have hret : ∀ (r : List Nat), retBytes (dataRet ((Except.ok r : Except Err (List Nat)).map (resultT py3))) = .ok (.data (some (.bytes r))) := by
    intro r; show Except.ok (Ret.data (some (asBytes (resultT py3 r)))) = _; unfold asBytes; rw [resultT_chars]
  cases q with
  | triple t => cases hc
  | single d =>
    have hk : d.key = k := by simpa [FObj.call, FDes.call] using hk
    have hm : d.base.mode = m := by simpa [FObj.call, FDes.call] using hm
    have hv : d.base.iv = v := by simpa [FObj.call, FDes.call] using hv
    have kn : d.Kn = createSubKeys k := by rw [← hk]; exact kn
    show retBytes (dataRet ((d.crypt py3 bs.flatten type).map (resultT py3))) = _
    have e : d.crypt py3 bs.flatten type = .ok (if type = 0 then (if m = 1 then cbcEncrypt (encipher k) b bs else ecb (encipher k) bs)
        else if type = 1 then (if m = 1 then cbcDecrypt (decipher k) b bs else ecb (decipher k) bs)
        else ecb (decipher k) bs).flatten := by
      by_cases h0 : type = 0
      · subst h0
        rw [if_pos rfl]
        by_cases h1 : m = 1
        · obtain ⟨hbl, x, hx, hxb⟩ := hiv h1
          rw [if_pos h1]
          exact (DF.single_crypt_cbc py3 d k b (hm.trans h1) (by rw [hv, hx]; exact chars_stands hxb) hbl kn bs hbs).1
        · rw [if_neg h1]
          exact DF.cryptF_ecb py3 d k (by rw [hm]; exact h1) kn true bs hb8
      · rw [if_neg h0]
        by_cases ht1 : type = 1
        · subst ht1
          rw [if_pos rfl]
          by_cases h1 : m = 1
          · obtain ⟨hbl, x, hx, hxb⟩ := hiv h1
            rw [if_pos h1]
            exact (DF.single_crypt_cbc py3 d k b (hm.trans h1) (by rw [hv, hx]; exact chars_stands hxb) hbl kn bs hbs).2
          · rw [if_neg h1]
            exact DF.cryptF_ecb py3 d k (by rw [hm]; exact h1) kn false bs hb8
        · rw [if_neg ht1]
          have loop : ∀ (cbc : Bool) (xs : List PyDes.Bits) (i : PyDes.Bits), cryptLoopT d.Kn type cbc i xs = cryptLoop d.Kn false false [] xs := by
            intro cbc xs
            induction xs with
            | nil => intro i; rfl
            | cons x xs ih =>
              intro i
              cases cbc <;> simp [cryptLoopT, cryptLoop, h0, ht1, ih]
          unfold FDes.crypt
          by_cases hnil : bs.flatten = []
          · rw [if_pos hnil]
            have hbn : bs = [] := by
              cases bs with
              | nil => rfl
              | cons x xs =>
                have := hb8 x (by simp)
                simp at hnil
                rw [hnil.1] at this; cases this
            subst hbn; rfl
          · rw [if_neg hnil]
            simp only
            rw [if_neg (show ¬ (bs.flatten.length % 8 ≠ 0) by omega)]
            simp only
            have hnoiv : ¬ (d.base.mode = CBC ∧ optChars d.base.iv = []) := by
              rintro ⟨a, c⟩
              obtain ⟨hbl, x, hx, hxb⟩ := hiv (hm.symm.trans a)
              rw [hv, hx] at c
              have : x.chars = b := chars_stands hxb
              rw [show optChars (some x) = x.chars from rfl, this] at c
              exact iv_block_ne b hbl c
            rw [if_neg hnoiv, if_neg (show ¬ (bs.flatten.length % 8 ≠ 0) by omega), loop, blocks_flatten bs hb8, cryptLoop_ecb, kn, dec_eq]
    rw [e]
    exact hret _

/-! ### What is raised -/

namespace DF

theorem appendPads_one (m : List Nat) (c : Nat) : (appendPads m [c]).length % 8 = 0 := by
  unfold appendPads
  rw [replicate_one]
  simp
  omega

/-- What comes of a padding of several characters. -/
def PadFailure (py3 : Bool) (n : Nat) (e : Err) : Prop := 1 < n ∧ (e = .indexError ∨ (e = .typeError ∧ py3 = false))

theorem crypt_kind {py3 : Bool} {d : FDes} {m : List Nat} {ty : Nat} {e : Err} (h : d.crypt py3 m ty = .error e) :
    e = .valueError ∨ (ty ≠ 1 ∧ PadFailure py3 (optChars d.base.padding).length e) := by
  unfold FDes.crypt at h
  by_cases hm : m = []
  · rw [if_pos hm] at h; cases h
  rw [if_neg hm] at h
  simp only at h
  by_cases h8 : m.length % 8 ≠ 0
  · rw [if_pos h8] at h
    by_cases ht : ty = 1
    · rw [if_pos ht] at h
      simp only at h
      injection h with h; exact .inl h.symm
    · rw [if_neg ht] at h
      by_cases hp : optChars d.base.padding = []
      · rw [if_pos hp] at h
        simp only at h
        injection h with h; exact .inl h.symm
      · rw [if_neg hp] at h
        simp only at h
        split at h
        · injection h with h; exact .inl h.symm
        · split at h
          · rename_i hx
            refine .inr ⟨ht, ?_, ?_⟩
            · match hq : optChars d.base.padding with
              | [] => exact (hp hq).elim
              | [c] => rw [hq] at hx; exact (hx (appendPads_one m c)).elim
              | _ :: _ :: _ => simp
            · split at h
              · rename_i hc; injection h with h; exact .inr ⟨h.symm, hc.2.2⟩
              · injection h with h; exact .inl h.symm
          · cases h
  · rw [if_neg h8] at h
    simp only at h
    split at h
    · injection h with h; exact .inl h.symm
    · first | cases h; done | (rw [if_neg h8] at h; cases h)

theorem crypt3_kind {py3 : Bool} {a b c : FDes} {f : Nat} {m : List Nat} {e : Err} {n : Nat} (h : crypt3 py3 a b c f m = .error e)
    (ha : (optChars a.base.padding).length = n) (hb : (optChars b.base.padding).length = n) (hc : (optChars c.base.padding).length = n) :
    e = .valueError ∨ PadFailure py3 n e := by
  unfold crypt3 at h
  split at h
  · rename_i h1; injection h with h; subst h
    rcases crypt_kind h1 with h | h
    · exact .inl h
    · rw [ha] at h; exact .inr h.2
  · split at h
    · rename_i h1; injection h with h; subst h
      rcases crypt_kind h1 with h | h
      · exact .inl h
      · rw [hb] at h; exact .inr h.2
    · rcases crypt_kind h with h | h
      · exact .inl h
      · rw [hc] at h; exact .inr h.2

theorem guardSome_kind {py3 : Bool} {p : Option Data} {e : Err} (h : guardSome py3 p = .error e) : e = .valueError := by
  unfold guardSome at h
  split at h
  · cases h
  · rename_i d
    rcases guard_cases py3 d with g | g <;> rw [g] at h
    · injection h with h; exact h.symm
    · cases h

theorem padData_kind {b : FBase} {m : List Nat} {p : Option Data} {pm : Option Nat} {e : Err} (h : b.padData m p pm = .error e) : e = .valueError := by
  unfold FBase.padData at h
  simp only at h
  repeat' split at h
  all_goals first | cases h; done | (injection h with h; exact h.symm)

theorem unpadData_kind {b : FBase} {m : List Nat} {p : Option Data} {pm : Option Nat} {e : Err} (h : b.unpadData m p pm = .error e) : e = .valueError := by
  unfold FBase.unpadData at h
  simp only at h
  repeat' split at h
  all_goals first | cases h; done | (injection h with h; exact h.symm)

theorem whole_blocks8 (m : List Nat) (h : m.length % 8 = 0) : ∃ bs : List (List Nat), bs.flatten = m ∧ ∀ b ∈ bs, b.length = 8 := by
  have : ∀ n (m : List Nat), m.length = 8 * n → ∃ bs : List (List Nat), bs.flatten = m ∧ ∀ b ∈ bs, b.length = 8 := by
    intro n
    induction n with
    | zero => intro m hm; match m, hm with | [], _ => exact ⟨[], rfl, by simp⟩
    | succ n ih =>
      intro m hm
      obtain ⟨bs, h1, h2⟩ := ih (m.drop 8) (by simp; omega)
      refine ⟨m.take 8 :: bs, by rw [List.flatten_cons, h1, List.take_append_drop], ?_⟩
      intro b hb
      rcases List.mem_cons.1 hb with rfl | hb
      · simp; omega
      · exact h2 b hb
  exact this (m.length / 8) m (by omega)

theorem loop_lengths (Kn : List PyDes.Bits) (ty : Nat) (cbc : Bool) (bs : List PyDes.Bits) (hb : ∀ x ∈ bs, x.length = 64) : ∀ iv : PyDes.Bits,
    (cbc = true → iv.length = 64) → ∀ x ∈ cryptLoopT Kn ty cbc iv bs, x.length = 64 := by
  induction bs with
  | nil => intro iv _ x hx; cases hx
  | cons b bs ih =>
    intro iv hiv x hx
    have hb1 := hb b (by simp)
    have ih := ih (fun x hx => hb x (by simp [hx]))
    unfold cryptLoopT at hx
    cases cbc with
    | false =>
      simp only [Bool.false_eq_true, if_false] at hx
      rcases List.mem_cons.1 hx with rfl | hx
      · simp
      · exact ih iv (fun h => by cases h) x hx
    | true =>
      simp only [if_true] at hx
      have hbl : (if ty = 0 then xorBits b iv else b).length = 64 := by
        split
        · rw [xorBits_length, hb1, hiv rfl]; rfl
        · exact hb1
      split at hx
      · rcases List.mem_cons.1 hx with rfl | hx
        · rw [xorBits_length, desCrypt_length, hiv rfl]; rfl
        · exact ih _ (fun _ => hbl) x hx
      · rcases List.mem_cons.1 hx with rfl | hx
        · simp
        · exact ih _ (fun _ => by simp) x hx

theorem crypt_length {py3 : Bool} {d : FDes} {m r : List Nat} {ty : Nat} (h : d.crypt py3 m ty = .ok r) (hiv : d.base.mode = CBC → (optChars d.base.iv).length = 8) :
    r.length % 8 = 0 := by
  unfold FDes.crypt at h
  by_cases hm : m = []
  · rw [if_pos hm] at h; injection h with h; subst h; rfl
  rw [if_neg hm] at h
  simp only at h
  generalize (if m.length % 8 ≠ 0 then if ty = 1 then Except.error Err.valueError else if optChars d.base.padding = [] then Except.error Err.valueError
    else Except.ok (appendPads m (optChars d.base.padding)) else Except.ok m) = q at h
  cases q with
  | error e => cases h
  | ok x =>
    simp only at h
    split at h
    · cases h
    · by_cases h8 : x.length % 8 ≠ 0
      · rw [if_pos h8] at h; split at h <;> cases h
      · rw [if_neg h8] at h
        injection h with h
        obtain ⟨bs, rfl, hbs⟩ := whole_blocks8 x (by omega)
        rw [blocks_flatten bs hbs] at h
        have hl := loop_lengths d.Kn ty (decide (d.base.mode = CBC)) (bs.map stringToBits)
          (by intro y hy; obtain ⟨z, hz, rfl⟩ := List.mem_map.1 hy; rw [stringToBits_length, hbs z hz]) (stringToBits (optChars d.base.iv))
          (by intro hc; rw [stringToBits_length, hiv (of_decide_eq_true hc)])
        rw [← h]
        clear h
        generalize cryptLoopT d.Kn ty (decide (d.base.mode = CBC)) (stringToBits (optChars d.base.iv)) (bs.map stringToBits) = l at hl
        induction l with
        | nil => rfl
        | cons y ys ih =>
          rw [List.flatMap_cons, List.length_append]
          have h1 := (stringToBits_bitsToString 8 y (hl y (by simp))).2.1
          have h2 := ih (fun z hz => hl z (by simp [hz]))
          omega

/-- Deciphering with three objects raises nothing but ValueError. -/
theorem crypt3_dec_kind {py3 : Bool} {a b c : FDes} {m : List Nat} {e : Err} (h : crypt3 py3 a b c 1 m = .error e)
    (ha : a.base.mode = CBC → (optChars a.base.iv).length = 8) : e = .valueError := by
  unfold crypt3 at h
  split at h
  · rename_i h1; injection h with h; subst h
    rcases crypt_kind h1 with h | h
    · exact h
    · exact (h.1 rfl).elim
  · rename_i x h1
    have h8 := crypt_length h1 ha
    split at h
    · rename_i h2
      injection h with h; subst h
      have := crypt_aligned py3 b x true h8
      rw [show (if true = true then 0 else 1) = 0 from rfl] at this
      rw [show 1 - 1 = 0 from rfl, this] at h2
      unfold Des.crypt at h2
      by_cases hx : x = []
      · rw [if_pos hx] at h2; cases h2
      · rw [if_neg hx] at h2
        simp only at h2
        rw [if_neg (show ¬ (x.length % 8 ≠ 0) by omega)] at h2
        simp only at h2
        split at h2
        · injection h2 with h2; exact h2.symm
        · cases h2
    · rcases crypt_kind h with h | h
      · exact h
      · exact (h.1 rfl).elim

/-- Inner paddings have `n` characters. -/
def PadN (n : Nat) (t : FTriple) : Prop := (optChars t.key1.base.padding).length = n ∧ (optChars t.key2.base.padding).length = n ∧ (optChars t.key3.base.padding).length = n

theorem setIVs_kind {py3 : Bool} {t t' : FTriple} {x : Option Data} {e : Err} (h : t.setIVs py3 x = (.error e, t')) : e = .valueError := by
  rw [setIVs_eq] at h
  cases hv : ivOf py3 x <;> rw [hv] at h
  · injection h with h; injection h with h; exact h.symm
  · injection h with h; cases h

theorem encLoop_kind {py3 : Bool} {n : Nat} {e : Err} (bs : List (List Nat)) : ∀ t : FTriple, PadN n t → (t.encLoop py3 bs).1 = .error e → e = .valueError ∨ PadFailure py3 n e := by
  induction bs with
  | nil => intro t _ h; cases h
  | cons b bs ih =>
    intro t hp h
    unfold FTriple.encLoop at h
    split at h
    · rename_i h1; injection h with h; subst h
      exact crypt3_kind h1 hp.1 hp.2.1 hp.2.2
    · rename_i block _
      rw [setIVs_eq] at h
      cases hv : ivOf py3 (some (.bytes block)) <;> rw [hv] at h
      · injection h with h; exact .inl h.symm
      · simp only at h
        split at h
        · rename_i h1; injection h with h; subst h
          exact ih (withIVs t _) hp (by rw [h1])
        · cases h

theorem ivOf_length {py3 : Bool} {x : Option Data} {v : List Nat} (h : ivOf py3 x = some v) : v.length = 8 := by
  unfold ivOf at h
  split at h
  · cases h
  · rename_i d
    split at h
    · rcases guard_cases py3 d with g | g <;> rw [g] at h
      · cases h
      · injection h with h; subst h; assumption
    · cases h

theorem decLoop_kind {py3 : Bool} {e : Err} (bs : List (List Nat)) : ∀ t : FTriple, (optChars t.key3.base.iv).length = 8 → (t.decLoop py3 bs).1 = .error e → e = .valueError := by
  induction bs with
  | nil => intro t _ h; cases h
  | cons b bs ih =>
    intro t hp h
    unfold FTriple.decLoop at h
    split at h
    · rename_i h1; injection h with h; subst h
      exact crypt3_dec_kind h1 (fun _ => hp)
    · rw [setIVs_eq] at h
      cases hv : ivOf py3 (some (.bytes b)) <;> rw [hv] at h
      · injection h with h; exact h.symm
      · simp only at h
        split at h
        · rename_i v _ _ _ h1; injection h with h; subst h
          exact ih (withIVs t _) (ivOf_length hv) (by rw [h1])
        · cases h

theorem unpadF_kind {b : FBase} {em : Data} {m : List Nat} {p : Option Data} {pm : Option Nat} {e : Err} (h : unpadF b em m p pm = .error e) : e = .valueError := by
  unfold unpadF at h
  split at h
  · cases h
  · split at h
    · rename_i h1; injection h with h; subst h; exact unpadData_kind h1
    · cases h

theorem triple_enc_kind {py3 : Bool} {n : Nat} {t : FTriple} {m : Data} {p : Option Data} {pm : Option Nat} {e : Err} (hp : PadN n t) (h : (t.encrypt py3 m p pm).1 = .error e) :
    e = .valueError ∨ PadFailure py3 n e := by
  unfold FTriple.encrypt at h
  rcases guard_cases py3 m with g | g <;> rw [g] at h
  · injection h with h; exact .inl h.symm
  · simp only at h
    split at h
    · rename_i h1; injection h with h; subst h; exact .inl (guardSome_kind h1)
    · split at h
      · rename_i h1; injection h with h; subst h; exact .inl (padData_kind h1)
      · rename_i x _
        split at h
        · rw [setIVs_eq] at h
          cases hv : ivOf py3 t.base.iv <;> rw [hv] at h
          · injection h with h; exact .inl h.symm
          · simp only at h
            split at h
            · rename_i h1; injection h with h; subst h
              exact encLoop_kind (blocks x) (withIVs t _) hp (by rw [h1])
            · cases h
        · split at h
          · rename_i h1; injection h with h; subst h; exact crypt3_kind h1 hp.1 hp.2.1 hp.2.2
          · cases h

theorem triple_dec_kind {py3 : Bool} {t : FTriple} {m : Data} {p : Option Data} {pm : Option Nat} {e : Err} (hm : t.key3.base.mode = t.base.mode)
    (h : (t.decrypt py3 m p pm).1 = .error e) : e = .valueError := by
  unfold FTriple.decrypt at h
  rcases guard_cases py3 m with g | g <;> rw [g] at h
  · injection h with h; exact h.symm
  · simp only at h
    split at h
    · rename_i h1; injection h with h; subst h; exact guardSome_kind h1
    · by_cases hc : t.base.mode = CBC
      · rw [if_pos hc, setIVs_eq] at h
        cases hv : ivOf py3 t.base.iv <;> rw [hv] at h
        · injection h with h; exact h.symm
        · simp only at h
          split at h
          · rename_i h1; injection h with h; subst h
            exact decLoop_kind (blocks m.chars) (withIVs t _) (ivOf_length hv) (by rw [h1])
          · exact unpadF_kind h
      · rw [if_neg hc] at h
        split at h
        · rename_i h1; injection h with h; subst h; exact crypt3_dec_kind h1 (fun x => (hc (hm.symm.trans x)).elim)
        · exact unpadF_kind h

theorem inner_kind {py3 : Bool} {b : FBase} {k : Data} {e : Err} (h : FTriple.inner py3 b k = .error e) : e = .valueError := by
  unfold FTriple.inner at h
  rcases des_new_congr (Same.refl py3 k) b.mode (SameO.refl py3 b.iv) (SameO.refl py3 b.padding) b.padmode with g | ⟨d, d', g, _⟩
  · rw [g.1] at h; injection h with h; exact h.symm
  · rw [g] at h; cases h

theorem setInner_kind {py3 : Bool} {t : FTriple} {k : Data} {e : Err} (h : (t.setInner py3 k).1 = .error e) : e = .valueError := by
  unfold FTriple.setInner at h
  split at h
  · rename_i h1; injection h with h; subst h; exact inner_kind h1
  · split at h
    · rename_i h1; injection h with h; subst h; exact inner_kind h1
    · split at h
      · rename_i h1; injection h with h; subst h
        by_cases hl : k.chars.length = 16
        · rw [if_pos hl] at h1; cases h1
        · rw [if_neg hl] at h1; exact inner_kind h1
      · rcases guard_cases py3 k with g | g <;> rw [g] at h
        · injection h with h; exact h.symm
        · cases h

theorem setKey_kind {py3 : Bool} {t : FTriple} {k : Data} {e : Err} (h : (t.setKey py3 k).1 = .error e) : e = .valueError := by
  unfold FTriple.setKey at h
  split at h
  · injection h with h; exact h.symm
  · simp only at h
    split at h
    · split at h
      · injection h with h; exact h.symm
      · exact setInner_kind h
    · split at h
      · injection h with h; exact h.symm
      · exact setInner_kind h

theorem setterRet_err {x : Except Err Unit} {e : Err} (h : setterRet x = .error e) : x = .error e := by
  cases x with
  | error y => injection h with h; rw [h]
  | ok u => cases h

theorem dataRet_err {x : Except Err Data} {e : Err} (h : dataRet x = .error e) : x = .error e := by
  cases x with
  | error y => injection h with h; rw [h]
  | ok u => cases h

theorem base_setPadding_kind {py3 : Bool} {b : FBase} {p : Option Data} {e : Err} (h : (b.setPadding py3 p).1 = .error e) : e = .valueError := by
  unfold FBase.setPadding at h
  split at h
  · rename_i h1; injection h with h; subst h; exact guardSome_kind h1
  · cases h

theorem base_setIV_kind {py3 : Bool} {b : FBase} {p : Option Data} {e : Err} (h : (b.setIV py3 p).1 = .error e) : e = .valueError := by
  rw [setIVb_eq] at h
  cases hv : ivOf py3 p <;> rw [hv] at h
  · injection h with h; exact h.symm
  · cases h

end DF

/-- C113. What can be raised. A constructor raises nothing but ValueError. A later call raises ValueError; AttributeError only for `crypt` on a
`triple_des` object; IndexError for a too short key in `des.setKey`; and IndexError, or on Python 2 TypeError, for `encrypt` and the enciphering `crypt`
when the padding that is set has more than one character. `decrypt` raises nothing but ValueError. -/
theorem C113_kinds (py3 tr : Bool) (key : Data) (mode : Nat) (iv pad : Option Data) (padmode : Option Nat) :
    (∀ e, FObj.new py3 tr key mode iv pad padmode = .error e → e = .valueError) ∧
    ∀ o, FObj.new py3 tr key mode iv pad padmode = .ok o → ∀ (before : List CallF) (c : CallF) (e : Err) (p : Option Data),
      ((o.run py3 before).call py3 .getPadding).1 = .ok (.data p) → ((o.run py3 before).call py3 c).1 = .error e →
        e = .valueError ∨
        (e = .attributeError ∧ tr = true ∧ ∃ m t, c = .crypt m t) ∨
        (e = .indexError ∧ tr = false ∧ ∃ k, c = .setKey k ∧ k.chars.length < 8) ∨
        (((∃ m q pm, c = .encrypt m q pm) ∨ (tr = false ∧ ∃ m t, c = .crypt m t ∧ t ≠ 1)) ∧ 1 < (optChars p).length ∧ (e = .indexError ∨ (e = .typeError ∧ py3 = false))) := by
  constructor
  · intro e h
    rcases DF.new_sim (tr := tr) (mode := mode) (pm := padmode) (DF.Same.refl py3 key) (DF.SameO.refl py3 iv) (DF.SameO.refl py3 pad) with ⟨g, _⟩ | ⟨o, _, g, _⟩
    · rw [h] at g; injection g
    · rw [h] at g; cases g
  · intro o h before c e p hp he
    have hc : DF.isTriple (o.run py3 before) = tr := by rw [DF.run_class, DF.new_class h]
    have w := DF.run_wf h before
    revert hc w hp he
    generalize o.run py3 before = q
    intro hp he hc w
    cases q with
    | single d =>
      change false = tr at hc; subst hc
      have hp : d.base.padding = p := by simpa [FObj.call, FDes.call] using hp
      cases c with
      | setKey k =>
        have h := DF.setterRet_err (show setterRet (d.setKey py3 k).1 = .error e from he)
        unfold FDes.setKey at h
        rcases DF.guard_cases py3 k with g | g <;> rw [g] at h
        · injection h with h; exact .inl h.symm
        · simp only at h
          split at h
          · rename_i hl; injection h with h; exact .inr (.inr (.inl ⟨h.symm, rfl, k, rfl, hl⟩))
          · cases h
      | setPadding q => exact .inl (DF.base_setPadding_kind (DF.setterRet_err he))
      | setIV q => exact .inl (DF.base_setIV_kind (DF.setterRet_err he))
      | encrypt m q pm =>
        have h := DF.dataRet_err (show dataRet (d.encrypt py3 m q pm) = .error e from he)
        unfold FDes.encrypt at h
        rcases DF.guard_cases py3 m with g | g <;> rw [g] at h
        · injection h with h; exact .inl h.symm
        · simp only at h
          split at h
          · rename_i h1; injection h with h; subst h; exact .inl (DF.guardSome_kind h1)
          · split at h
            · rename_i h1; injection h with h; subst h; exact .inl (DF.padData_kind h1)
            · split at h
              · rename_i h1; injection h with h; subst h
                rcases DF.crypt_kind h1 with h | h
                · exact .inl h
                · rw [hp] at h; exact .inr (.inr (.inr ⟨.inl ⟨m, q, pm, rfl⟩, h.2.1, h.2.2⟩))
              · cases h
      | decrypt m q pm =>
        have h := DF.dataRet_err (show dataRet (d.decrypt py3 m q pm) = .error e from he)
        unfold FDes.decrypt at h
        rcases DF.guard_cases py3 m with g | g <;> rw [g] at h
        · injection h with h; exact .inl h.symm
        · simp only at h
          split at h
          · rename_i h1; injection h with h; subst h; exact .inl (DF.guardSome_kind h1)
          · split at h
            · rename_i h1; injection h with h; subst h
              rcases DF.crypt_kind h1 with h | h
              · exact .inl h
              · exact (h.1 rfl).elim
            · split at h
              · cases h
              · split at h
                · rename_i h1; injection h with h; subst h; exact .inl (DF.unpadData_kind h1)
                · cases h
      | crypt m t =>
        have h := DF.dataRet_err (show dataRet ((d.crypt py3 m t).map (resultT py3)) = .error e from he)
        cases hx : d.crypt py3 m t with
        | ok r => rw [hx] at h; cases h
        | error y =>
          rw [hx] at h; injection h with h; subst h
          rcases DF.crypt_kind hx with h | h
          · exact .inl h
          · rw [hp] at h; exact .inr (.inr (.inr ⟨.inr ⟨rfl, m, t, rfl, h.1⟩, h.2.1, h.2.2⟩))
      | setMode _ => cases he
      | setPadMode _ => cases he
      | getKey => cases he
      | getMode => cases he
      | getPadding => cases he
      | getPadMode => cases he
      | getIV => cases he
    | triple t =>
      change true = tr at hc; subst hc
      have hp : t.base.padding = p := by simpa [FObj.call, FTriple.call] using hp
      have hin : DF.PadN (optChars p).length t ∧ t.key3.base.mode = t.base.mode := by
        cases w.1 with
        | triple s =>
          exact ⟨⟨by rw [s.in1.2, hp], by rw [s.in2.2, hp], by rw [s.in3.2, hp]⟩, s.in3.1⟩
      cases c with
      | setKey k => exact .inl (DF.setKey_kind (DF.setterRet_err he))
      | setPadding q =>
        have h := DF.setterRet_err (show setterRet (t.setPadding py3 q).1 = .error e from he)
        unfold FTriple.setPadding at h
        split at h
        · rename_i h1; injection h with h; subst h; exact .inl (DF.base_setPadding_kind (by rw [h1]))
        · cases h
      | setIV q =>
        have h := DF.setterRet_err (show setterRet (t.setIV py3 q).1 = .error e from he)
        unfold FTriple.setIV at h
        split at h
        · rename_i h1; injection h with h; subst h; exact .inl (DF.base_setIV_kind (by rw [h1]))
        · exact .inl (DF.setIVs_kind (Prod.ext h rfl))
      | encrypt m q pm =>
        rcases DF.triple_enc_kind hin.1 (DF.dataRet_err (show dataRet (t.encrypt py3 m q pm).1 = .error e from he)) with h | h
        · exact .inl h
        · exact .inr (.inr (.inr ⟨.inl ⟨m, q, pm, rfl⟩, h.1, h.2⟩))
      | decrypt m q pm => exact .inl (DF.triple_dec_kind hin.2 (DF.dataRet_err (show dataRet (t.decrypt py3 m q pm).1 = .error e from he)))
      | crypt m ty => injection he with he; exact .inr (.inl ⟨he.symm, rfl, m, ty, rfl⟩)
      | setMode _ => cases he
      | setPadMode _ => cases he
      | getKey => cases he
      | getMode => cases he
      | getPadding => cases he
      | getPadMode => cases he
      | getIV => cases he

/-! ### Pads of several bytes -/

/-- C113. With bytes for arguments and a padding mode that is not None, a `des` object is that of C101, for pads of any length. -/
theorem C113_pads (py3 : Bool) (key : List Nat) (mode : Nat) (iv pad : List Nat) (padmode : Nat) :
    (FObj.new py3 false (.bytes key) mode (some (.bytes iv)) (some (.bytes pad)) (some padmode) = .error .valueError ∧
      MDes.new key mode iv pad padmode = .error .valueError) ∨
    ∃ o d, FObj.new py3 false (.bytes key) mode (some (.bytes iv)) (some (.bytes pad)) (some padmode) = .ok o ∧ MDes.new key mode iv pad padmode = .ok d ∧
      ∀ (m p : List Nat) (pm : Option Nat),
        retBytes (o.call py3 (.encrypt (.bytes m) (some (.bytes p)) pm)).1 = (d.encrypt py3 m p pm).map (fun r => Ret.data (some (.bytes r))) ∧
        retBytes (o.call py3 (.decrypt (.bytes m) (some (.bytes p)) pm)).1 = (d.decrypt py3 m p pm).map (fun r => Ret.data (some (.bytes r))) := by
  have gi : ∀ x : List Nat, guardIf py3 (some (.bytes x)) = .ok (some (.bytes x)) := by
    intro x; unfold guardIf; simp only [Data.guard]; split <;> rfl
  have hret : ∀ (x : Data) (r : List Nat), x.chars = r → retBytes (dataRet (.ok x)) = .ok (.data (some (.bytes r))) := by
    intro x r hx; show Except.ok (Ret.data (some (asBytes x))) = _; unfold asBytes; rw [hx]
  unfold FObj.new
  rw [if_neg (by decide)]
  unfold FDes.new MDes.new
  by_cases hk : key.length ≠ 8
  · rw [if_pos (show (Data.bytes key).chars.length ≠ 8 from hk), if_pos hk]; exact .inl ⟨rfl, rfl⟩
  rw [if_neg (show ¬ (Data.bytes key).chars.length ≠ 8 from hk), if_neg hk]
  by_cases h1 : pad ≠ [] ∧ padmode = PAD_PKCS5
  · have e : FBase.new py3 mode (some (.bytes iv)) (some (.bytes pad)) (some padmode) = .error .valueError := by
      unfold FBase.new; rw [gi, gi]
      exact if_pos (show optChars (some (.bytes pad)) ≠ [] ∧ some padmode = some PAD_PKCS5 from ⟨h1.1, by rw [h1.2]⟩)
    rw [e, if_pos h1]; exact .inl ⟨rfl, rfl⟩
  rw [if_neg h1]
  have h1' : ¬ (optChars (some (.bytes pad)) ≠ [] ∧ some padmode = some PAD_PKCS5) := fun h => h1 ⟨h.1, by simpa using h.2⟩
  by_cases h2 : iv ≠ [] ∧ iv.length ≠ 8
  · have e : FBase.new py3 mode (some (.bytes iv)) (some (.bytes pad)) (some padmode) = .error .valueError := by
      unfold FBase.new; rw [gi, gi]
      show (if _ then _ else _) = _
      rw [if_neg h1']
      exact if_pos (show optChars (some (.bytes iv)) ≠ [] ∧ (optChars (some (.bytes iv))).length ≠ 8 from h2)
    rw [e, if_pos h2]; exact .inl ⟨rfl, rfl⟩
  rw [if_neg h2]
  have e : FBase.new py3 mode (some (.bytes iv)) (some (.bytes pad)) (some padmode) = .ok ⟨mode, some (.bytes iv), some (.bytes pad), some padmode⟩ := by
    unfold FBase.new; rw [gi, gi]
    show (if _ then _ else _) = _
    rw [if_neg h1']
    exact if_neg (show ¬ (optChars (some (.bytes iv)) ≠ [] ∧ (optChars (some (.bytes iv))).length ≠ 8) from h2)
  rw [e]
  refine .inr ⟨_, _, rfl, rfl, ?_⟩
  intro m p pm
  have hcr : ∀ x (e : Bool), FDes.crypt py3 ⟨⟨mode, some (.bytes iv), some (.bytes pad), some padmode⟩, key, createSubKeys key⟩ x (if e then 0 else 1) =
      MDes.crypt py3 ⟨mode, iv, pad, padmode, createSubKeys key⟩ x e := by
    intro x e
    unfold FDes.crypt MDes.crypt
    simp only [optChars, Data.chars, DF.loopT]
    by_cases hx : x = []
    · rw [if_pos hx, if_pos hx]
    rw [if_neg hx, if_neg hx]
    by_cases h8 : x.length % 8 ≠ 0
    · rw [if_pos h8, if_pos h8]
      cases e with
      | false => rfl
      | true =>
        by_cases hp : pad = []
        · subst hp; rfl
        · simp [hp]
    · rw [if_neg h8, if_neg h8]
      cases e <;> simp
  have hpm : ∀ q : Nat, ((pm <|> some padmode) = some q) = (pm.getD padmode = q) := by intro q; cases pm <;> simp
  constructor
  · show retBytes (dataRet (FDes.encrypt py3 ⟨⟨mode, some (.bytes iv), some (.bytes pad), some padmode⟩, key, createSubKeys key⟩ (.bytes m) (some (.bytes p)) pm)) = _
    unfold FDes.encrypt MDes.encrypt
    simp only [Data.guard, guardSome]
    have hpad : FBase.padData ⟨mode, some (.bytes iv), some (.bytes pad), some padmode⟩ m (some (.bytes p)) pm = padDataM pad padmode m p pm := by
      unfold FBase.padData padDataM
      simp only [optChars, Data.chars, hpm]
      by_cases hp : p = [] <;> simp [hp]
    rw [hpad]
    cases padDataM pad padmode m p pm with
    | error e => rfl
    | ok x =>
      simp only
      have := hcr x true
      rw [show (if true = true then 0 else 1) = 0 from rfl] at this
      rw [this]
      cases MDes.crypt py3 ⟨mode, iv, pad, padmode, createSubKeys key⟩ x true with
      | error e => rfl
      | ok r => exact hret _ _ (resultT_chars _ _)
  · show retBytes (dataRet (FDes.decrypt py3 ⟨⟨mode, some (.bytes iv), some (.bytes pad), some padmode⟩, key, createSubKeys key⟩ (.bytes m) (some (.bytes p)) pm)) = _
    unfold FDes.decrypt MDes.decrypt
    simp only [Data.guard, guardSome]
    have := hcr m false
    rw [show (if false = true then 0 else 1) = 1 from rfl] at this
    rw [this]
    cases MDes.crypt py3 ⟨mode, iv, pad, padmode, createSubKeys key⟩ m false with
    | error e => rfl
    | ok r =>
      simp only
      by_cases hr : r = []
      · rw [if_pos hr, hr]; exact hret _ _ (resultT_chars _ _)
      · rw [if_neg hr]
        have hun : FBase.unpadData ⟨mode, some (.bytes iv), some (.bytes pad), some padmode⟩ r (some (.bytes p)) pm = unpadDataM pad padmode r p pm := by
          unfold FBase.unpadData unpadDataM
          obtain ⟨l, hl⟩ : ∃ l, r.getLast? = some l := by
            cases r with
            | nil => exact (hr rfl).elim
            | cons x xs => exact ⟨_, List.getLast?_eq_some_getLast (by simp)⟩
          rw [hl]
          simp only [optChars, Data.chars, hpm, Option.getD_some]
          by_cases hp : p = [] <;> simp [hp]
        rw [hun]
        cases unpadDataM pad padmode r p pm with
        | error e => rfl
        | ok x => exact hret _ _ rfl

/-! ### Concrete cases -/

/-- Eight characters of text, the key of the examples. -/
def exKeyF : Data := .text [68, 69, 83, 67, 82, 89, 80, 84]

/-- C113_erase: decrypting changes a triple DES object inside, and is erased with the getter and the call that fails; the setter stays. -/
example : ∃ o, FObj.new true true (.bytes (List.range 16)) 1 none none (some 1) = .ok o ∧
    [CallF.encrypt (.bytes (List.range 16)) none none, .setMode 0, .decrypt (.bytes [1, 2, 3]) none none, .getIV].filter CallF.sets = [.setMode 0] ∧
    (o.call true (.decrypt (.bytes (List.range 16)) none none)).2 ≠ o := by
  refine ⟨_, rfl, by decide, ?_⟩
  decide +kernel

/-- C113_getters: two objects with different pasts on which the getters agree. -/
example : ∃ o o', FObj.new true false exKeyF 1 (some (.bytes [1, 2, 3, 4, 5, 6, 7, 8])) none (some 1) = .ok o ∧
    FObj.new true false (.bytes (List.range 8)) 0 none (some (.bytes [0])) none = .ok o' ∧ GoodKey true (.setKey exKeyF) ∧
    ∀ g ∈ [CallF.getKey, .getMode, .getPadding, .getPadMode, .getIV],
      ((o.run true [.encrypt (.bytes [1]) none none]).call true g).1 =
        ((o'.run true [.setKey exKeyF, .setMode 1, .setIV (some (.bytes [1, 2, 3, 4, 5, 6, 7, 8])), .setPadding none, .setPadMode (some 1)]).call true g).1 := by
  refine ⟨_, _, rfl, rfl, ⟨by decide, _, .inr ⟨rfl, rfl, by decide⟩⟩, ?_⟩
  decide +kernel

/-- C113_short_key. -/
example : Stands true (.text [68, 69, 83]) [68, 69, 83] ∧ [68, 69, 83].length < 8 := ⟨.inr ⟨rfl, rfl, by decide⟩, by decide⟩

/-- C113_text: constructor and calls with text. -/
example : ∃ o o', FObj.new true false exKeyF 0 none (some (.text [32])) (some 1) = .ok o ∧
    FObj.new true false (asBytes exKeyF) 0 none (some (.bytes [32])) (some 1) = .ok o' ∧
    (o.call true (.encrypt (.text [97, 98, 99]) none none)).1 = (o'.call true (.encrypt (.bytes [97, 98, 99]) none none)).1 ∧
    (o.call true (.encrypt (.text [97, 98, 99]) none none)).1 = .ok (.data (some (.bytes [134, 42, 202, 234, 221, 206, 92, 26]))) := by
  refine ⟨_, _, rfl, rfl, ?_, ?_⟩ <;> decide +kernel
/-- C113_text: the empty text as initial vector is shown as it was given. -/
example : ∃ o, FObj.new true false exKeyF 0 (some (.text [])) none (some 1) = .ok o ∧ (o.call true .getIV).1 = .ok (.data (some (.text []))) := ⟨_, rfl, rfl⟩

/-- C113_unusable: text that is not ASCII; any text on Python 2. -/
example : Unusable true (.text [233]) ∧ Unusable false exKeyF := ⟨⟨_, rfl, .inr ⟨233, by decide, by decide⟩⟩, ⟨_, rfl, .inl rfl⟩⟩

/-- C113_standard, C113_crypt: what the getters show after two setters, and two blocks. -/
example : ∃ o, FObj.new true true (.bytes (List.range 24)) 0 none (some (.bytes [32])) (some 1) = .ok o ∧
    ((o.run true [.setMode 1, .setIV (some exKeyF)]).call true .getMode).1 = .ok (.number (some 1)) ∧
    ((o.run true [.setMode 1, .setIV (some exKeyF)]).call true .getIV).1 = .ok (.data (some (.bytes exKeyF.chars))) ∧
    IsBlock exKeyF.chars ∧ ∀ x ∈ [List.range 8, exKeyF.chars], IsBlock x := by
  refine ⟨_, rfl, rfl, rfl, ?_, ?_⟩ <;> unfold IsBlock <;> decide

/-- C113_kinds: a pad of two bytes leaves the last block short: IndexError, in CBC on Python 2 TypeError. -/
example : ∃ o o', FObj.new true false exKeyF 0 none (some (.bytes [1, 2])) (some 1) = .ok o ∧
    FObj.new false false (.bytes (List.range 8)) 1 (some (.bytes (List.range 8))) (some (.bytes [1, 2])) (some 1) = .ok o' ∧
    (o.call true (.encrypt (.bytes [1, 2, 3]) none none)).1 = .error .indexError ∧
    (o'.call false (.encrypt (.bytes [1, 2, 3]) none none)).1 = .error .typeError ∧
    (o.call true (.setKey (.bytes [1]))).1 = .error .indexError := by
  refine ⟨_, _, rfl, rfl, ?_, ?_, rfl⟩ <;> decide +kernel

/-- C113_pads. -/
example : ∃ o, FObj.new true false (.bytes (List.range 8)) 0 (some (.bytes [])) (some (.bytes [1, 2])) (some 1) = .ok o := ⟨_, rfl⟩

end Verif.Props
