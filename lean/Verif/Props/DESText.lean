import Verif.Model.DESText
import Verif.Props.DESSetters
/-! C85: text arguments of pyDes objects. -/
namespace Verif.Props
open Verif.Py Verif.Model Verif.Model.PyDes Verif.Spec Verif.Spec.DES

/-! ### What text stands for -/

/-- The argument is the byte string `b`, or on Python 3 the text whose characters, all ASCII, have the codes `b`. -/
def Stands (py3 : Bool) (d : Data) (b : List Nat) : Prop := d = .bytes b ∨ (py3 = true ∧ d = .text b ∧ ∀ c ∈ b, c < 128)

/-- Text that cannot be used: with a character that is not ASCII, and on Python 2 all text. -/
def Unusable (py3 : Bool) (d : Data) : Prop := ∃ s, d = .text s ∧ (py3 = false ∨ ∃ c ∈ s, 128 ≤ c)

/-- The same for pad arguments. -/
def StandsPad (py3 : Bool) : Option PadArg → Option Nat → Prop
  | none, q => q = none
  | some p, q => ∃ c, q = some c ∧ (p = .byte c ∨ (py3 = true ∧ p = .char c ∧ c < 128))

def UnusablePad (py3 : Bool) (p : Option PadArg) : Prop := ∃ c, p = some (.char c) ∧ (py3 = false ∨ 128 ≤ c)

/-- The call with byte strings that a call stands for. -/
inductive StandsCall (py3 : Bool) : CallT → PyDes.Call → Prop
  | setKey {d b} : Stands py3 d b → StandsCall py3 (.setKey d) (.setKey b)
  | setMode {m} : StandsCall py3 (.setMode m) (.setMode m)
  | setPadding {p q} : StandsPad py3 p q → StandsCall py3 (.setPadding p) (.setPadding q)
  | setPadMode {m} : StandsCall py3 (.setPadMode m) (.setPadMode m)
  | setIV {d b} : Stands py3 d b → StandsCall py3 (.setIV d) (.setIV b)
  | encrypt {d b p q m} : Stands py3 d b → StandsPad py3 p q → StandsCall py3 (.encrypt d p m) (.encrypt b q m)
  | decrypt {d b p q m} : Stands py3 d b → StandsPad py3 p q → StandsCall py3 (.decrypt d p m) (.decrypt b q m)

/-- A call with an argument that cannot be used. -/
def UnusableCall (py3 : Bool) : CallT → Prop
  | .setKey d => Unusable py3 d
  | .setPadding p => UnusablePad py3 p
  | .setIV d => Unusable py3 d
  | .encrypt d p _ => Unusable py3 d ∨ UnusablePad py3 p
  | .decrypt d p _ => Unusable py3 d ∨ UnusablePad py3 p
  | .setMode _ => False
  | .setPadMode _ => False

/-- The calls with byte strings that a sequence of calls amounts to: the unusable ones are left out. -/
inductive Reads (py3 : Bool) : List CallT → List PyDes.Call → Prop
  | nil : Reads py3 [] []
  | good {c c' cs cs'} : StandsCall py3 c c' → Reads py3 cs cs' → Reads py3 (c :: cs) (c' :: cs')
  | bad {c cs cs'} : UnusableCall py3 c → Reads py3 cs cs' → Reads py3 (c :: cs) cs'

theorem all_iff (s : List Nat) : s.all (· < 128) = true ↔ ∀ c ∈ s, c < 128 := by simp

theorem guard_stands {py3 : Bool} {d : Data} {b : List Nat} (h : Stands py3 d b) : d.guard py3 = .ok b := by
  rcases h with rfl | ⟨hp, rfl, hb⟩
  · rfl
  · show (if py3 = true ∧ b.all (· < 128) = true then Except.ok b else _) = _
    rw [if_pos ⟨hp, (all_iff b).2 hb⟩]

theorem chars_stands {py3 : Bool} {d : Data} {b : List Nat} (h : Stands py3 d b) : d.chars = b := by
  rcases h with rfl | ⟨_, rfl, _⟩ <;> rfl

theorem guard_unusable {py3 : Bool} {d : Data} (h : Unusable py3 d) : d.guard py3 = .error .valueError := by
  obtain ⟨s, rfl, h⟩ := h
  show (if py3 = true ∧ s.all (· < 128) = true then Except.ok s else _) = _
  rw [if_neg]
  rintro ⟨h1, h2⟩
  rcases h with h | ⟨c, hc, h⟩
  · rw [h] at h1; cases h1
  · have := (all_iff s).1 h2 c hc
    omega

/-- Every argument is one or the other. -/
theorem stands_or_unusable (py3 : Bool) (d : Data) : (∃ b, Stands py3 d b) ∨ Unusable py3 d := by
  cases d with
  | bytes b => exact .inl ⟨b, .inl rfl⟩
  | text s =>
    cases py3 with
    | false => exact .inr ⟨s, rfl, .inl rfl⟩
    | true =>
      by_cases h : ∀ c ∈ s, c < 128
      · exact .inl ⟨s, .inr ⟨rfl, rfl, h⟩⟩
      · refine .inr ⟨s, rfl, .inr ?_⟩
        simp only [Classical.not_forall, Nat.not_lt] at h
        obtain ⟨c, hc, h⟩ := h
        exact ⟨c, hc, h⟩

theorem guardPad_stands {py3 : Bool} {p : Option PadArg} {q : Option Nat} (h : StandsPad py3 p q) : guardPad py3 p = .ok q := by
  cases p with
  | none => cases h; rfl
  | some p =>
    obtain ⟨c, rfl, rfl | ⟨hp, rfl, hc⟩⟩ := h
    · rfl
    · unfold guardPad PadArg.guard
      simp only
      rw [if_pos ⟨hp, hc⟩]

theorem guardPad_unusable {py3 : Bool} {p : Option PadArg} (h : UnusablePad py3 p) : guardPad py3 p = .error .valueError := by
  obtain ⟨c, rfl, h⟩ := h
  unfold guardPad PadArg.guard
  simp only
  rw [if_neg]
  rintro ⟨h1, h2⟩
  rcases h with h | h
  · rw [h] at h1; cases h1
  · omega

theorem guardPad_cases (py3 : Bool) (p : Option PadArg) : (∃ q, guardPad py3 p = .ok q) ∨ guardPad py3 p = .error .valueError := by
  cases p with
  | none => exact .inl ⟨none, rfl⟩
  | some p =>
    cases p with
    | byte c => exact .inl ⟨some c, rfl⟩
    | char c =>
      unfold guardPad PadArg.guard
      simp only
      by_cases h : py3 = true ∧ c < 128
      · rw [if_pos h]; exact .inl ⟨some c, rfl⟩
      · rw [if_neg h]; exact .inr rfl

/-! ### `des` -/

theorem newT_stands {py3 : Bool} {key iv : Data} {k v : List Nat} {pad : Option PadArg} {q : Option Nat} (hk : Stands py3 key k) (hv : Stands py3 iv v)
    (hp : StandsPad py3 pad q) (mode padmode : Nat) : PDes.newT py3 key mode iv pad padmode = PDes.new k mode v q padmode := by
  unfold PDes.newT PDes.new Des.new
  rw [chars_stands hk, guard_stands hk, guard_stands hv, guardPad_stands hp]
  by_cases h : k.length = 8
  · rw [if_neg (by omega), if_neg (by omega)]
    simp only
    cases Base.new mode v q padmode <;> rfl
  · rw [if_pos (show k.length ≠ 8 from h), if_pos (show k.length ≠ 8 from h)]

theorem newT_unusable {py3 : Bool} {key iv : Data} {pad : Option PadArg} (h : Unusable py3 key ∨ Unusable py3 iv ∨ UnusablePad py3 pad) (mode padmode : Nat) :
    PDes.newT py3 key mode iv pad padmode = .error .valueError := by
  unfold PDes.newT
  split
  · rfl
  rcases stands_or_unusable py3 iv with ⟨v, hv⟩ | hv
  · rw [guard_stands hv]
    simp only
    rcases guardPad_cases py3 pad with ⟨q, hq⟩ | hq
    · rw [hq]
      simp only
      have hb : (∃ b, Base.new mode v q padmode = .ok b) ∨ Base.new mode v q padmode = .error .valueError := by
        unfold Base.new
        split
        · exact .inr rfl
        split
        · exact .inr rfl
        · exact .inl ⟨_, rfl⟩
      rcases hb with ⟨b, hb⟩ | hb
      · rw [hb]
        simp only
        rcases h with h | h | h
        · rw [guard_unusable h]
        · have := guard_stands hv
          rw [guard_unusable h] at this
          cases this
        · rw [guardPad_unusable h] at hq; cases hq
      · rw [hb]
    · rw [hq]
  · rw [guard_unusable hv]

/-- The outcome of a call with text as seen through its bytes. -/
def seen : Except Err (Option Data) → Except Err (List Nat)
  | .error e => .error e
  | .ok none => .ok []
  | .ok (some d) => .ok d.chars

theorem resultT_chars (py3 : Bool) (r : List Nat) : (resultT py3 r).chars = r := by
  unfold resultT
  split
  · next h => rw [h.2]; rfl
  · rfl

theorem unpadData_nil (b : Base) (pad padmode : Option Nat) : b.unpadData [] pad padmode = .ok [] := rfl

theorem callT_stands {py3 : Bool} (o : PDes) {c : CallT} {c' : PyDes.Call} (h : StandsCall py3 c c') :
    (seen (o.callT py3 c).1, (o.callT py3 c).2) = o.call c' := by
  cases h with
  | setKey h =>
    unfold PDes.callT PDes.call
    simp only [guard_stands h]
    rcases o.setKey _ with ⟨r, o'⟩
    cases r <;> rfl
  | setMode => rfl
  | setPadding h =>
    unfold PDes.callT PDes.call
    simp only [guardPad_stands h]
    rfl
  | setPadMode => rfl
  | @setIV d b h =>
    unfold PDes.callT PDes.call
    simp only [guard_stands h, chars_stands h]
    by_cases hl : b.length = 8
    · rw [if_neg (by omega)]
      rcases o.setIV b with ⟨r, o'⟩
      cases r <;> rfl
    · rw [if_pos (show b.length ≠ 8 from hl)]
      have : o.setIV b = (.error .valueError, o) := by
        unfold PDes.setIV Des.setIV Base.setIV
        rw [if_pos (.inr hl)]
      rw [this]
      rfl
  | @encrypt d b p q m h hp =>
    unfold PDes.callT PDes.call Des.encryptT Des.encrypt
    simp only [guard_stands h, guardPad_stands hp]
    cases o.des.base.padData b q m with
    | error e => rfl
    | ok x =>
      simp only
      cases o.des.crypt x true with
      | error e => rfl
      | ok r =>
        show (Except.ok (resultT py3 r).chars, o) = _
        rw [resultT_chars]
  | @decrypt d b p q m h hp =>
    unfold PDes.callT PDes.call Des.decryptT Des.decrypt
    simp only [guard_stands h, guardPad_stands hp]
    cases o.des.crypt b false with
    | error e => rfl
    | ok r =>
      simp only
      by_cases hr : r = []
      · rw [if_pos hr, hr, unpadData_nil]
        show (Except.ok (resultT py3 []).chars, o) = _
        rw [resultT_chars]
      · rw [if_neg hr]
        cases o.des.base.unpadData r q m <;> rfl

theorem callT_unusable {py3 : Bool} (o : PDes) {c : CallT} (h : UnusableCall py3 c) : o.callT py3 c = (.error .valueError, o) := by
  cases c with
  | setKey d => unfold PDes.callT; simp only [guard_unusable (show Unusable py3 d from h)]
  | setMode m => exact h.elim
  | setPadMode m => exact h.elim
  | setPadding p => unfold PDes.callT; simp only [guardPad_unusable (show UnusablePad py3 p from h)]
  | setIV d =>
    unfold PDes.callT
    simp only [guard_unusable (show Unusable py3 d from h)]
    split <;> rfl
  | encrypt d p m =>
    unfold PDes.callT Des.encryptT
    rcases stands_or_unusable py3 d with ⟨b, hb⟩ | hb
    · rcases (show Unusable py3 d ∨ UnusablePad py3 p from h) with h | h
      · simp only [guard_unusable h]; rfl
      · simp only [guard_stands hb, guardPad_unusable h]; rfl
    · simp only [guard_unusable hb]; rfl
  | decrypt d p m =>
    unfold PDes.callT Des.decryptT
    rcases stands_or_unusable py3 d with ⟨b, hb⟩ | hb
    · rcases (show Unusable py3 d ∨ UnusablePad py3 p from h) with h | h
      · simp only [guard_unusable h]; rfl
      · simp only [guard_stands hb, guardPad_unusable h]; rfl
    · simp only [guard_unusable hb]; rfl

theorem runT_reads {py3 : Bool} (o : PDes) {cs : List CallT} {cs' : List PyDes.Call} (h : Reads py3 cs cs') : o.runT py3 cs = o.run cs' := by
  induction h generalizing o with
  | nil => rfl
  | good hc _ ih =>
    rw [PDes.runT, PDes.run, ih]
    exact congrArg (fun p => PDes.run p.2 _) (callT_stands o hc)
  | bad hc _ ih =>
    rw [PDes.runT, ih, callT_unusable o hc]

/-- C85. A `des` object. On Python 3 an ASCII text can be given wherever bytes are expected – to the constructor, the setters, encrypt and
decrypt, in any history – and every call has the outcome it has with the bytes; text with another character (on Python 2: any text) makes
the constructor and every call raise ValueError, and the object is as if the call had not been made. -/
theorem C85_des (py3 : Bool) (key iv : Data) (mode : Nat) (pad : Option PadArg) (padmode : Nat) :
    (Unusable py3 key ∨ Unusable py3 iv ∨ UnusablePad py3 pad → PDes.newT py3 key mode iv pad padmode = .error .valueError) ∧
    ∀ k v q, Stands py3 key k → Stands py3 iv v → StandsPad py3 pad q →
      PDes.newT py3 key mode iv pad padmode = PDes.new k mode v q padmode ∧
      ∀ o, PDes.new k mode v q padmode = .ok o → ∀ cs cs', Reads py3 cs cs' →
        o.runT py3 cs = o.run cs' ∧
        (∀ c c', StandsCall py3 c c' → seen ((o.runT py3 cs).callT py3 c).1 = ((o.run cs').call c').1) ∧
        (∀ c, UnusableCall py3 c → (o.runT py3 cs).callT py3 c = (.error .valueError, o.runT py3 cs)) := by
  refine ⟨fun h => newT_unusable h mode padmode, fun k v q hk hv hp => ⟨newT_stands hk hv hp mode padmode, fun o ho cs cs' hr => ⟨runT_reads o hr, ?_, ?_⟩⟩⟩
  · intro c c' hc
    rw [runT_reads o hr]
    exact congrArg Prod.fst (callT_stands (o.run cs') hc)
  · intro c hc
    exact callT_unusable _ hc

/-! ### `triple_des` -/

/-- The object as one that only knows bytes. -/
def asP (o : TTriple) : PTriple := ⟨o.key, o.asTriple⟩

/-- The IV of the object can be used. -/
def UsableIV (py3 : Bool) (o : TTriple) : Prop := Stands py3 o.iv o.iv.chars

theorem stands_slice {py3 : Bool} {d : Data} {b : List Nat} (h : Stands py3 d b) (i j : Nat) : Stands py3 (d.slice i j) ((b.drop i).take (j - i)) := by
  rcases h with rfl | ⟨hp, rfl, hb⟩
  · exact .inl rfl
  · refine .inr ⟨hp, rfl, fun c hc => hb c ?_⟩
    exact List.mem_of_mem_drop (List.mem_of_mem_take hc)

theorem standsPad_byte (py3 : Bool) (q : Option Nat) : StandsPad py3 (q.map .byte) q := by
  cases q with
  | none => rfl
  | some c => exact ⟨c, rfl, .inl rfl⟩

theorem inner_stands {py3 : Bool} (o : TTriple) (hu : UsableIV py3 o) {key : Data} {k : List Nat} (hk : Stands py3 key k) :
    o.inner py3 key = Des.new k o.mode o.iv.chars o.padding o.padmode := by
  unfold TTriple.inner
  rw [newT_stands hk hu (standsPad_byte py3 o.padding)]
  unfold PDes.new
  cases Des.new k o.mode o.iv.chars o.padding o.padmode <;> rfl

theorem desNew_other {k k' : List Nat} {mode : Nat} {iv : List Nat} {pad : Option Nat} {padmode : Nat} {d : Des} (h : Des.new k mode iv pad padmode = .ok d)
    (hk : k'.length = 8) : Des.new k' mode iv pad padmode = .ok ⟨d.base, createSubKeys k'⟩ := by
  unfold Des.new at h ⊢
  rw [if_neg (by omega)]
  split at h
  · cases h
  · cases hb : Base.new mode iv pad padmode with
    | error e => rw [hb] at h; cases h
    | ok b =>
      rw [hb] at h
      injection h with h
      subst h
      rfl

theorem setInner_stands {py3 : Bool} (o : TTriple) (hu : UsableIV py3 o) {key : Data} {k : List Nat} (hk : Stands py3 key k)
    (hl : k.length = 16 ∨ k.length = 24) :
    (∀ e, Des.new (k.take 8) o.mode o.iv.chars o.padding o.padmode = .error e → o.setInner py3 key = (.error e, o)) ∧
    (∀ d, Des.new (k.take 8) o.mode o.iv.chars o.padding o.padmode = .ok d →
      o.setInner py3 key = (.ok (), ⟨k, o.mode, o.iv, o.padding, o.padmode, d, ⟨d.base, createSubKeys ((k.drop 8).take 8)⟩,
        if k.length = 16 then d else ⟨d.base, createSubKeys (k.drop 16)⟩⟩)) := by
  have s1 := stands_slice hk 0 8
  have s2 := stands_slice hk 8 16
  have s3 := stands_slice hk 16 24
  simp only [List.drop_zero, Nat.sub_zero] at s1
  have e3 : (k.drop 16).take (24 - 16) = k.drop 16 := List.take_of_length_le (by simp; omega)
  rw [e3] at s3
  unfold TTriple.setInner
  rw [inner_stands o hu s1, inner_stands o hu s2]
  constructor
  · intro e he
    rw [he]
  · intro d hd
    rw [hd]
    simp only
    rw [desNew_other hd (show ((k.drop 8).take (16 - 8)).length = 8 by simp; omega)]
    simp only
    unfold TTriple.setThird
    rw [chars_stands hk, guard_stands hk]
    by_cases h16 : k.length = 16
    · rw [if_pos h16, if_pos h16]
    · rw [if_neg h16, if_neg h16]
      have := inner_stands (py3 := py3) ⟨o.key, o.mode, o.iv, o.padding, o.padmode, d, ⟨d.base, createSubKeys ((k.drop 8).take (16 - 8))⟩, o.key3⟩ hu s3
      rw [this]
      simp only
      rw [desNew_other hd (show (k.drop 16).length = 8 by simp; omega)]

theorem ofBase_parts (b : Base) (k : List Nat) (hl : k.length = 16 ∨ k.length = 24) (hc : ¬ ((b.defaultIV k).mode = CBC ∧ (b.defaultIV k).iv.length ≠ 8)) :
    (∀ e, Des.new (k.take 8) (b.defaultIV k).mode (b.defaultIV k).iv (b.defaultIV k).padding (b.defaultIV k).padmode = .error e → Triple.ofBase b k = .error e) ∧
    (∀ d, Des.new (k.take 8) (b.defaultIV k).mode (b.defaultIV k).iv (b.defaultIV k).padding (b.defaultIV k).padmode = .ok d →
      Triple.ofBase b k = .ok ⟨b.defaultIV k, d, ⟨d.base, createSubKeys ((k.drop 8).take 8)⟩, if k.length = 16 then d else ⟨d.base, createSubKeys (k.drop 16)⟩⟩) := by
  have h0 : Triple.ofBase b k = (do
      let k1 ← Des.new (k.take 8) (b.defaultIV k).mode (b.defaultIV k).iv (b.defaultIV k).padding (b.defaultIV k).padmode
      let k2 ← Des.new ((k.drop 8).take 8) (b.defaultIV k).mode (b.defaultIV k).iv (b.defaultIV k).padding (b.defaultIV k).padmode
      let k3 ← if k.length = 16 then pure k1
               else Des.new (k.drop 16) (b.defaultIV k).mode (b.defaultIV k).iv (b.defaultIV k).padding (b.defaultIV k).padmode
      return ⟨b.defaultIV k, k1, k2, k3⟩) := by
    unfold Triple.ofBase
    rw [if_neg (show ¬ (k.length ≠ 24 ∧ k.length ≠ 16) by omega)]
    exact if_neg hc
  constructor
  · intro e he
    rw [h0, he]
    rfl
  · intro d hd
    rw [h0, hd]
    simp only [bind, Except.bind, pure, Except.pure]
    rw [desNew_other hd (show ((k.drop 8).take 8).length = 8 by simp; omega)]
    simp only
    by_cases h16 : k.length = 16
    · rw [if_pos h16, if_pos h16]
    · rw [if_neg h16, if_neg h16, desNew_other hd (show (k.drop 16).length = 8 by simp; omega)]

theorem setKeyT_stands {py3 : Bool} (o : TTriple) (hu : UsableIV py3 o) {key : Data} {k : List Nat} (hk : Stands py3 key k) :
    (o.setKey py3 key).1 = ((asP o).setKey k).1 ∧ asP (o.setKey py3 key).2 = ((asP o).setKey k).2 ∧ UsableIV py3 (o.setKey py3 key).2 := by
  unfold TTriple.setKey PTriple.setKey
  rw [chars_stands hk]
  by_cases hl : k.length ≠ 24 ∧ k.length ≠ 16
  · rw [if_pos hl, if_pos hl]
    exact ⟨rfl, rfl, hu⟩
  rw [if_neg hl, if_neg hl]
  have hl' : k.length = 16 ∨ k.length = 24 := by omega
  have key_case : ∀ o1 : TTriple, UsableIV py3 o1 → o1.key = o.key → o1.key1 = o.key1 → o1.key2 = o.key2 → o1.key3 = o.key3 →
      o1.asTriple.base = (o.asTriple.base).defaultIV k → ¬ (o1.mode = CBC ∧ o1.iv.chars.length ≠ 8) →
      (o1.setInner py3 key).1 = (match Triple.ofBase (asP o).t.base k with
        | .error e => ((.error e, ⟨(asP o).key, ⟨(asP o).t.base.defaultIV k, (asP o).t.key1, (asP o).t.key2, (asP o).t.key3⟩⟩) : Except Err Unit × PTriple)
        | .ok t => (.ok (), ⟨k, t⟩)).1 ∧
      asP (o1.setInner py3 key).2 = (match Triple.ofBase (asP o).t.base k with
        | .error e => ((.error e, ⟨(asP o).key, ⟨(asP o).t.base.defaultIV k, (asP o).t.key1, (asP o).t.key2, (asP o).t.key3⟩⟩) : Except Err Unit × PTriple)
        | .ok t => (.ok (), ⟨k, t⟩)).2 ∧ UsableIV py3 (o1.setInner py3 key).2 := by
    intro o1 hu1 q0 q1 q2 q3 hb hc
    have hb' : (asP o).t.base.defaultIV k = ⟨o1.mode, o1.iv.chars, o1.padding, o1.padmode⟩ := hb.symm
    obtain ⟨i1, i2⟩ := setInner_stands o1 hu1 hk hl'
    have := ofBase_parts (asP o).t.base k hl'
    rw [hb'] at this
    obtain ⟨f1, f2⟩ := this hc
    cases hd : Des.new (k.take 8) o1.mode o1.iv.chars o1.padding o1.padmode with
    | error e =>
      rw [i1 e hd, f1 e hd]
      refine ⟨rfl, ?_, hu1⟩
      show PTriple.mk o1.key o1.asTriple = ⟨(asP o).key, ⟨(asP o).t.base.defaultIV k, (asP o).t.key1, (asP o).t.key2, (asP o).t.key3⟩⟩
      rw [hb', q0]
      show PTriple.mk o.key ⟨⟨o1.mode, o1.iv.chars, o1.padding, o1.padmode⟩, o1.key1, o1.key2, o1.key3⟩ = _
      rw [q1, q2, q3]
      rfl
    | ok d =>
      rw [i2 d hd, f2 d hd]
      exact ⟨rfl, rfl, hu1⟩
  by_cases h1 : o.mode = CBC ∧ o.iv.chars = []
  · rw [if_pos h1]
    have s1 := stands_slice hk 0 8
    simp only [List.drop_zero, Nat.sub_zero] at s1
    refine key_case ⟨o.key, o.mode, key.slice 0 8, o.padding, o.padmode, o.key1, o.key2, o.key3⟩ ?_ rfl rfl rfl rfl ?_ ?_
    · show Stands py3 (key.slice 0 8) (key.slice 0 8).chars
      rw [chars_stands s1]
      exact s1
    · show Base.mk o.mode (key.slice 0 8).chars o.padding o.padmode = _
      rw [chars_stands s1]
      unfold Base.defaultIV
      rw [if_pos (show o.asTriple.base.mode = CBC ∧ o.asTriple.base.iv = [] from h1)]
      rfl
    · simp only [chars_stands s1]
      intro h
      apply h.2
      simp; omega
  · rw [if_neg h1]
    have hd : (asP o).t.base.defaultIV k = (asP o).t.base := by
      unfold Base.defaultIV
      exact if_neg h1
    by_cases h2 : o.mode = CBC ∧ o.iv.chars.length ≠ 8
    · rw [if_pos h2]
      have he : Triple.ofBase (asP o).t.base k = .error .valueError := by
        have h0 : Triple.ofBase (asP o).t.base k = if ((asP o).t.base.defaultIV k).mode = CBC ∧ ((asP o).t.base.defaultIV k).iv.length ≠ 8 then .error .valueError else (do
            let k1 ← Des.new (k.take 8) ((asP o).t.base.defaultIV k).mode ((asP o).t.base.defaultIV k).iv ((asP o).t.base.defaultIV k).padding ((asP o).t.base.defaultIV k).padmode
            let k2 ← Des.new ((k.drop 8).take 8) ((asP o).t.base.defaultIV k).mode ((asP o).t.base.defaultIV k).iv ((asP o).t.base.defaultIV k).padding ((asP o).t.base.defaultIV k).padmode
            let k3 ← if k.length = 16 then pure k1
                     else Des.new (k.drop 16) ((asP o).t.base.defaultIV k).mode ((asP o).t.base.defaultIV k).iv ((asP o).t.base.defaultIV k).padding ((asP o).t.base.defaultIV k).padmode
            return ⟨(asP o).t.base.defaultIV k, k1, k2, k3⟩) := by
          unfold Triple.ofBase
          rw [if_neg hl]
          rfl
        rw [h0, hd, if_pos (show (asP o).t.base.mode = CBC ∧ (asP o).t.base.iv.length ≠ 8 from h2)]
      rw [he, hd]
      exact ⟨rfl, rfl, hu⟩
    · rw [if_neg h2]
      exact key_case o hu rfl rfl rfl rfl hd.symm h2

theorem iv_guard {py3 : Bool} (o : TTriple) (hu : UsableIV py3 o) : (if o.mode = CBC then o.iv.guard py3 else .ok o.iv.chars) = .ok o.iv.chars := by
  split
  · exact guard_stands hu
  · rfl

theorem result_chars (py3 : Bool) (o : TTriple) (r : List Nat) : (o.result py3 r).chars = r := by
  unfold TTriple.result
  split
  · rfl
  · exact resultT_chars py3 r

theorem encryptT_stands {py3 : Bool} (o : TTriple) (hu : UsableIV py3 o) {d : Data} {b : List Nat} {p : Option PadArg} {q : Option Nat} (h : Stands py3 d b)
    (hp : StandsPad py3 p q) (m : Option Nat) :
    o.encrypt py3 d p m = (o.asTriple.encrypt b q m).map (fun x => (o.result py3 x.1, o.withTriple x.2)) := by
  unfold TTriple.encrypt
  rw [guard_stands h, guardPad_stands hp, iv_guard o hu]
  simp only
  cases o.asTriple.encrypt b q m <;> rfl

theorem decryptT_stands {py3 : Bool} (o : TTriple) (hu : UsableIV py3 o) {d : Data} {b : List Nat} {p : Option PadArg} {q : Option Nat} (h : Stands py3 d b)
    (hp : StandsPad py3 p q) (m : Option Nat) :
    o.decrypt py3 d p m = (o.asTriple.decrypt b q m).map (fun x => (if b = [] then o.result py3 x.1 else .bytes x.1, o.withTriple x.2)) := by
  unfold TTriple.decrypt
  rw [guard_stands h, guardPad_stands hp, iv_guard o hu]
  simp only
  cases o.asTriple.decrypt b q m <;> rfl

theorem setIVs_base {t t' : Triple} {b : Base} {iv : List Nat} (h : t.base = b) (e : t.setIVs iv = .ok t') : t'.base = b := by
  by_cases hl : iv.length = 8
  · rw [setIVs_ok t iv hl] at e
    injection e with e
    subst e
    exact h
  · rw [setIVs_err t iv hl] at e; cases e

theorem encLoop_base (b : Base) (bs : List (List Nat)) (t : Triple) (h : t.base = b) (r : List Nat) (t' : Triple)
    (e : t.encLoop bs = .ok (r, t')) : t'.base = b := by
  induction bs generalizing t r t' with
  | nil => unfold Triple.encLoop at e; injection e with e; injection e with _ e; subst e; exact h
  | cons x xs ih =>
    unfold Triple.encLoop at e
    simp only [bind, Except.bind, pure, Except.pure] at e
    split at e
    · cases e
    · split at e
      · cases e
      · split at e
        · cases e
        · split at e
          · cases e
          · rename_i he
            split at e
            · cases e
            · rename_i v hv
              injection e with e
              injection e with _ e
              subst e
              exact ih _ (setIVs_base h he) _ _ hv

theorem decLoop_base (b : Base) (bs : List (List Nat)) (t : Triple) (h : t.base = b) (r : List Nat) (t' : Triple)
    (e : t.decLoop bs = .ok (r, t')) : t'.base = b := by
  induction bs generalizing t r t' with
  | nil => unfold Triple.decLoop at e; injection e with e; injection e with _ e; subst e; exact h
  | cons x xs ih =>
    unfold Triple.decLoop at e
    simp only [bind, Except.bind, pure, Except.pure] at e
    split at e
    · cases e
    · split at e
      · cases e
      · split at e
        · cases e
        · split at e
          · cases e
          · rename_i he
            split at e
            · cases e
            · rename_i v hv
              injection e with e
              injection e with _ e
              subst e
              exact ih _ (setIVs_base h he) _ _ hv

theorem encrypt_base {t t' : Triple} {b : Base} {m r : List Nat} {pad padmode : Option Nat} (h : t.base = b)
    (e : t.encrypt m pad padmode = .ok (r, t')) : t'.base = b := by
  unfold Triple.encrypt at e
  simp only [bind, Except.bind, pure, Except.pure] at e
  split at e
  · cases e
  · split at e
    · split at e
      · cases e
      · rename_i he
        exact encLoop_base b _ _ (setIVs_base h he) _ _ e
    · split at e
      · cases e
      · split at e
        · cases e
        · split at e
          · cases e
          · injection e with e; injection e with _ e; subst e; exact h

theorem decrypt_base {t t' : Triple} {b : Base} {m r : List Nat} {pad padmode : Option Nat} (h : t.base = b)
    (e : t.decrypt m pad padmode = .ok (r, t')) : t'.base = b := by
  unfold Triple.decrypt at e
  simp only [bind, Except.bind, pure, Except.pure] at e
  split at e
  · split at e
    · cases e
    · rename_i he
      split at e
      · cases e
      · rename_i v hv
        split at e
        · cases e
        · injection e with e; injection e with _ e; subst e
          exact decLoop_base b _ _ (setIVs_base h he) _ _ hv
  · split at e
    · cases e
    · split at e
      · cases e
      · split at e
        · cases e
        · split at e
          · cases e
          · injection e with e; injection e with _ e; subst e; exact h

theorem withTriple_asP (o : TTriple) (t : Triple) (h : t.base.iv = o.iv.chars) : asP (o.withTriple t) = ⟨o.key, t⟩ := by
  obtain ⟨⟨m, iv, pd, pm⟩, k1, k2, k3⟩ := t
  simp only at h
  subst h
  rfl

theorem step_stands {py3 : Bool} {o o' : TTriple} {c : CallT} {r : Except Err (Option Data)} (hu : UsableIV py3 o) (hs : TTriple.Call py3 o c r o')
    {c' : PyDes.Call} (hc : StandsCall py3 c c') : PTriple.Call (asP o) c' (seen r) (asP o') ∧ UsableIV py3 o' := by
  cases hc with
  | @setKey d b h =>
    cases hs with
    | @setKey _ r _ e =>
      obtain ⟨e1, e2, e3⟩ := setKeyT_stands o hu h
      rw [e] at e1 e2 e3
      refine ⟨?_, e3⟩
      have : (asP o).setKey b = (r, asP o') := Prod.ext e1.symm e2.symm
      cases r with
      | error x => exact .setKeyFails this
      | ok x => exact .setKey this
  | setMode =>
    cases hs with
    | setMode =>
      refine ⟨?_, hu⟩
      rw [withTriple_asP _ _ rfl]
      exact .setMode (o := asP o)
  | setPadding h =>
    cases hs with
    | setPadding e =>
      rw [guardPad_stands h] at e
      injection e with e
      subst e
      refine ⟨?_, hu⟩
      rw [withTriple_asP _ _ rfl]
      exact .setPadding (o := asP o)
    | setPaddingFails e => rw [guardPad_stands h] at e; cases e
  | setPadMode =>
    cases hs with
    | setPadMode =>
      refine ⟨?_, hu⟩
      rw [withTriple_asP _ _ rfl]
      exact .setPadMode (o := asP o)
  | @setIV d b h =>
    cases hs with
    | @setIV _ r _ e =>
      unfold TTriple.setIV at e
      rw [chars_stands h, guard_stands h] at e
      by_cases hl : b.length = 8
      · rw [if_neg (by omega)] at e
        have hb : o.asTriple.base.setIV b = .ok ⟨o.mode, b, o.padding, o.padmode⟩ := by
          unfold Base.setIV
          rw [if_neg (by rintro (h' | h'); · rw [h'] at hl; cases hl
                         · exact h' hl)]
          rfl
        have hh : o.asTriple.setIV b = .ok (withIVs ⟨⟨o.mode, b, o.padding, o.padmode⟩, o.key1, o.key2, o.key3⟩ b) := by
          unfold Triple.setIV
          rw [hb]
          exact setIVs_ok _ b hl
        simp only at e
        rw [hh] at e
        injection e with e1 e2
        subst e1 e2
        exact ⟨.setIV (o := asP o) hh, .inl rfl⟩
      · rw [if_pos (show b.length ≠ 8 from hl)] at e
        injection e with e1 e2
        subst e1 e2
        refine ⟨.setIVFails (o := asP o) ?_, hu⟩
        show o.asTriple.setIV b = _
        unfold Triple.setIV Base.setIV
        rw [if_pos (.inr hl)]
  | @encrypt d b p q m h hp =>
    have he := encryptT_stands o hu h hp m
    cases hs with
    | encrypt e =>
      rw [he] at e
      cases hx : o.asTriple.encrypt b q m with
      | error x => rw [hx] at e; cases e
      | ok x =>
        obtain ⟨r, t⟩ := x
        rw [hx] at e
        injection e with e
        injection e with e1 e2
        subst e1 e2
        have hb : t.base = o.asTriple.base := encrypt_base rfl hx
        rw [withTriple_asP _ _ (congrArg Base.iv hb)]
        refine ⟨?_, hu⟩
        show PTriple.Call _ _ (.ok (o.result py3 r).chars) _
        rw [result_chars]
        exact .encrypt (o := asP o) hx
    | encryptRefused e hg =>
      rw [guard_stands h, guardPad_stands hp] at hg
      rcases hg with hg | hg <;> cases hg
    | encryptFails e _ _ hx =>
      rw [he] at e
      cases hx' : o.asTriple.encrypt b q m with
      | ok x => rw [hx'] at e; cases e
      | error x =>
        rw [hx'] at e
        injection e with e
        subst e
        have hb : ∀ t, o.asTriple.SameButIVs t → t.base.iv = o.iv.chars := by rintro t ⟨_, _, _, rfl⟩; rfl
        rw [withTriple_asP _ _ (hb _ hx)]
        exact ⟨.encryptFails (o := asP o) hx' hx, hu⟩
  | @decrypt d b p q m h hp =>
    have he := decryptT_stands o hu h hp m
    cases hs with
    | decrypt e =>
      rw [he] at e
      cases hx : o.asTriple.decrypt b q m with
      | error x => rw [hx] at e; cases e
      | ok x =>
        obtain ⟨r, t⟩ := x
        rw [hx] at e
        injection e with e
        injection e with e1 e2
        subst e1 e2
        have hb : t.base = o.asTriple.base := decrypt_base rfl hx
        rw [withTriple_asP _ _ (congrArg Base.iv hb)]
        refine ⟨?_, hu⟩
        have hr : (if b = [] then o.result py3 r else Data.bytes r).chars = r := by
          split
          · exact result_chars py3 o r
          · rfl
        show PTriple.Call _ _ (.ok (if b = [] then o.result py3 r else Data.bytes r).chars) _
        rw [hr]
        exact .decrypt (o := asP o) hx
    | decryptRefused e hg =>
      rw [guard_stands h, guardPad_stands hp] at hg
      rcases hg with hg | hg <;> cases hg
    | decryptFails e _ _ hx =>
      rw [he] at e
      cases hx' : o.asTriple.decrypt b q m with
      | ok x => rw [hx'] at e; cases e
      | error x =>
        rw [hx'] at e
        injection e with e
        subst e
        have hb : ∀ t, o.asTriple.SameButIVs t → t.base.iv = o.iv.chars := by rintro t ⟨_, _, _, rfl⟩; rfl
        rw [withTriple_asP _ _ (hb _ hx)]
        exact ⟨.decryptFails (o := asP o) hx' hx, hu⟩

theorem step_unusable {py3 : Bool} {o o' : TTriple} {c : CallT} {r : Except Err (Option Data)} (hs : TTriple.Call py3 o c r o') (hc : UnusableCall py3 c)
    (hk : ∀ d, c ≠ .setKey d) : r = .error .valueError ∧ o' = o := by
  cases hs with
  | setKey e => exact absurd rfl (hk _)
  | setMode => exact hc.elim
  | setPadMode => exact hc.elim
  | setPadding e => rw [guardPad_unusable hc] at e; cases e
  | setPaddingFails e => rw [guardPad_unusable hc] at e; injection e with e; subst e; exact ⟨rfl, rfl⟩
  | @setIV d _ _ e =>
    unfold TTriple.setIV at e
    rw [guard_unusable (show Unusable py3 d from hc)] at e
    simp only at e
    split at e <;> (injection e with e1 e2; subst e1 e2; exact ⟨rfl, rfl⟩)
  | @encrypt d p m _ _ e =>
    exfalso
    unfold TTriple.encrypt at e
    rcases (show Unusable py3 d ∨ UnusablePad py3 p from hc) with h | h
    · rw [guard_unusable h] at e; cases e
    · rw [guardPad_unusable h] at e
      cases hd : d.guard py3 <;> rw [hd] at e <;> cases e
  | @encryptRefused d p m x e hg =>
    have : d.guard py3 = .error x ∨ guardPad py3 p = .error x := hg
    have hx : x = .valueError := by
      rcases this with h | h
      · rcases stands_or_unusable py3 d with ⟨b, hb⟩ | hb
        · rw [guard_stands hb] at h; cases h
        · rw [guard_unusable hb] at h; injection h with h; exact h.symm
      · rcases guardPad_cases py3 p with ⟨b, hb⟩ | hb
        · rw [hb] at h; cases h
        · rw [hb] at h; injection h with h; exact h.symm
    subst hx
    exact ⟨rfl, rfl⟩
  | @encryptFails d p m _ _ _ _ e h1 h2 _ =>
    exfalso
    rcases (show Unusable py3 d ∨ UnusablePad py3 p from hc) with h | h
    · rw [guard_unusable h] at h1; cases h1
    · rw [guardPad_unusable h] at h2; cases h2
  | @decrypt d p m _ _ e =>
    exfalso
    unfold TTriple.decrypt at e
    rcases (show Unusable py3 d ∨ UnusablePad py3 p from hc) with h | h
    · rw [guard_unusable h] at e; cases e
    · rw [guardPad_unusable h] at e
      cases hd : d.guard py3 <;> rw [hd] at e <;> cases e
  | @decryptRefused d p m x e hg =>
    have : d.guard py3 = .error x ∨ guardPad py3 p = .error x := hg
    have hx : x = .valueError := by
      rcases this with h | h
      · rcases stands_or_unusable py3 d with ⟨b, hb⟩ | hb
        · rw [guard_stands hb] at h; cases h
        · rw [guard_unusable hb] at h; injection h with h; exact h.symm
      · rcases guardPad_cases py3 p with ⟨b, hb⟩ | hb
        · rw [hb] at h; cases h
        · rw [hb] at h; injection h with h; exact h.symm
    subst hx
    exact ⟨rfl, rfl⟩
  | @decryptFails d p m _ _ _ _ e h1 h2 _ =>
    exfalso
    rcases (show Unusable py3 d ∨ UnusablePad py3 p from hc) with h | h
    · rw [guard_unusable h] at h1; cases h1
    · rw [guardPad_unusable h] at h2; cases h2

theorem reads_snoc {py3 : Bool} (cs : List CallT) (c : CallT) (X : List PyDes.Call) (h : Reads py3 (cs ++ [c]) X) :
    ∃ Y, Reads py3 cs Y ∧ ((∃ c', StandsCall py3 c c' ∧ X = Y ++ [c']) ∨ (UnusableCall py3 c ∧ X = Y)) := by
  induction cs generalizing X with
  | nil =>
    cases h with
    | good h1 h2 => cases h2; exact ⟨[], .nil, .inl ⟨_, h1, rfl⟩⟩
    | bad h1 h2 => cases h2; exact ⟨[], .nil, .inr ⟨h1, rfl⟩⟩
  | cons x xs ih =>
    cases h with
    | good h1 h2 =>
      obtain ⟨Y, hY, h | h⟩ := ih _ h2
      · obtain ⟨c', hc, rfl⟩ := h
        exact ⟨_ :: Y, .good h1 hY, .inl ⟨c', hc, rfl⟩⟩
      · obtain ⟨hc, rfl⟩ := h
        exact ⟨_ :: _, .good h1 hY, .inr ⟨hc, rfl⟩⟩
    | bad h1 h2 =>
      obtain ⟨Y, hY, h⟩ := ih _ h2
      exact ⟨Y, .bad h1 hY, h⟩

theorem runTriple_reads {py3 : Bool} {o0 o : TTriple} (hu : UsableIV py3 o0) {cs : List CallT} (hr : TTriple.Run py3 o0 cs o) {cs' : List PyDes.Call}
    (h : Reads py3 cs cs') (hk : ∀ d, .setKey d ∈ cs → ∃ b, Stands py3 d b) : PTriple.Run (asP o0) cs' (asP o) ∧ UsableIV py3 o := by
  induction hr generalizing cs' with
  | nil => cases h; exact ⟨.nil, hu⟩
  | @snoc cs c o1 o2 r hr hc ih =>
    obtain ⟨Y, hY, h | h⟩ := reads_snoc _ _ _ h
    · obtain ⟨c', hs, rfl⟩ := h
      obtain ⟨i1, i2⟩ := ih hY (fun d hd => hk d (by simp [hd]))
      obtain ⟨j1, j2⟩ := step_stands i2 hc hs
      exact ⟨.snoc i1 j1, j2⟩
    · obtain ⟨hs, rfl⟩ := h
      obtain ⟨i1, i2⟩ := ih hY (fun d hd => hk d (by simp [hd]))
      obtain ⟨_, rfl⟩ := step_unusable hc hs (by
        rintro d rfl
        obtain ⟨b, hb⟩ := hk d (by simp)
        have := guard_stands hb
        rw [guard_unusable hs] at this
        cases this)
      exact ⟨i1, i2⟩

theorem newTriple_stands {py3 : Bool} {key iv : Data} {k v : List Nat} {pad : Option PadArg} {q : Option Nat} (hk : Stands py3 key k) (hv : Stands py3 iv v)
    (hp : StandsPad py3 pad q) (mode padmode : Nat) :
    (∀ e, PTriple.new k mode v q padmode = .error e → TTriple.new py3 key mode iv pad padmode = .error e) ∧
    (∀ p, PTriple.new k mode v q padmode = .ok p → ∃ o, TTriple.new py3 key mode iv pad padmode = .ok o ∧ asP o = p ∧ UsableIV py3 o) := by
  unfold TTriple.new PTriple.new Triple.new
  rw [guard_stands hv, guardPad_stands hp]
  simp only
  cases hb : Base.new mode v q padmode with
  | error x =>
    constructor
    · intro e he
      injection he with he
      subst he
      rfl
    · intro p hp'; cases hp'
  | ok b =>
    simp only
    have hu : UsableIV py3 ⟨[], b.mode, .bytes b.iv, b.padding, b.padmode, noDes, noDes, noDes⟩ := .inl rfl
    obtain ⟨h1, h2, h3⟩ := setKeyT_stands ⟨[], b.mode, .bytes b.iv, b.padding, b.padmode, noDes, noDes, noDes⟩ hu hk
    have hbase : (asP ⟨[], b.mode, .bytes b.iv, b.padding, b.padmode, noDes, noDes, noDes⟩).t.base = b := rfl
    cases hs : TTriple.setKey py3 ⟨[], b.mode, .bytes b.iv, b.padding, b.padmode, noDes, noDes, noDes⟩ key with
    | mk r o =>
      rw [hs] at h1 h2 h3
      unfold PTriple.setKey at h1 h2
      rw [hbase] at h1 h2
      by_cases hl : k.length ≠ 24 ∧ k.length ≠ 16
      · rw [if_pos hl] at h1 h2
        have hof : Triple.ofBase b k = .error .valueError := by unfold Triple.ofBase; rw [if_pos hl]
        rw [hof]
        simp only at h1
        subst h1
        constructor
        · intro e he; injection he with he; subst he; rfl
        · intro p hp'; cases hp'
      · rw [if_neg hl] at h1 h2
        cases hof : Triple.ofBase b k with
        | error x =>
          rw [hof] at h1 h2
          simp only at h1
          subst h1
          constructor
          · intro e he; injection he with he; subst he; rfl
          · intro p hp'; cases hp'
        | ok t =>
          rw [hof] at h1 h2
          simp only at h1 h2
          subst h1
          constructor
          · intro e he; cases he
          · intro p hp'
            injection hp' with hp'
            subst hp'
            exact ⟨o, rfl, h2, h3⟩

theorem standsNone {py3 : Bool} : StandsPad py3 none none := rfl

/-- C85. A `triple_des` object: an ASCII text can be given (on Python 3) wherever bytes are expected, also as the key from which CBC mode takes its
IV. The constructor accepts what it accepts as bytes. After any history – unusable text refused with ValueError and without effect, as
long as it is not given to setKey – the object has the key of a bytes-only object with the corresponding history, and encrypts and
decrypts like it. -/
theorem C85_triple (py3 : Bool) (key iv : Data) (k v : List Nat) (pad : Option PadArg) (q : Option Nat) (hk : Stands py3 key k) (hv : Stands py3 iv v)
    (hp : StandsPad py3 pad q) (mode padmode : Nat) :
    (∀ e, PTriple.new k mode v q padmode = .error e → TTriple.new py3 key mode iv pad padmode = .error e) ∧
    ∀ p0, PTriple.new k mode v q padmode = .ok p0 → ∃ o0, TTriple.new py3 key mode iv pad padmode = .ok o0 ∧
      ∀ cs cs' o, TTriple.Run py3 o0 cs o → Reads py3 cs cs' → (∀ d, .setKey d ∈ cs → ∃ b, Stands py3 d b) →
        ∃ p, PTriple.Run p0 cs' p ∧ o.key = p.key ∧
          (∀ d b a x m, Stands py3 d b → StandsPad py3 a x →
            (o.encrypt py3 d a m).map (fun r => r.1.chars) = (p.t.encrypt b x m).map Prod.fst ∧
            (o.decrypt py3 d a m).map (fun r => r.1.chars) = (p.t.decrypt b x m).map Prod.fst) ∧
          ∀ c r o', UnusableCall py3 c → (∀ d, c ≠ .setKey d) → TTriple.Call py3 o c r o' → r = .error .valueError ∧ o' = o := by
  obtain ⟨n1, n2⟩ := newTriple_stands hk hv hp mode padmode
  refine ⟨n1, fun p0 h0 => ?_⟩
  obtain ⟨o0, ho, rfl, hu⟩ := n2 p0 h0
  refine ⟨o0, ho, fun cs cs' o hr hrd hks => ?_⟩
  obtain ⟨hrun, hu'⟩ := runTriple_reads hu hr hrd hks
  refine ⟨asP o, hrun, rfl, fun d b a x m hd ha => ⟨?_, ?_⟩, fun c r o' hc hk' hs => step_unusable hs hc hk'⟩
  · rw [encryptT_stands o hu' hd ha]
    show _ = (o.asTriple.encrypt b x m).map Prod.fst
    cases o.asTriple.encrypt b x m with
    | error e => rfl
    | ok y =>
      show Except.ok (o.result py3 y.1).chars = _
      rw [result_chars]
      rfl
  · rw [decryptT_stands o hu' hd ha]
    show _ = (o.asTriple.decrypt b x m).map Prod.fst
    cases o.asTriple.decrypt b x m with
    | error e => rfl
    | ok y =>
      show Except.ok (if b = [] then o.result py3 y.1 else Data.bytes y.1).chars = _
      have : (if b = [] then o.result py3 y.1 else Data.bytes y.1).chars = y.1 := by
        split
        · exact result_chars py3 o y.1
        · rfl
      rw [this]
      rfl

/-- C85. Python 3. A text key that is refused because only its later part is not ASCII has already replaced part of the key: `setKey` raises
ValueError and getKey still gives the old key, but from then on blocks are enciphered with the new first third (and, when only the last third
is not ASCII, the new second third) and the rest of the old key. -/
theorem C85_half_set_key (key : List Nat) (o : TTriple) (h : TTriple.new true (.bytes key) 0 (.bytes []) none 1 = .ok o)
    (s : List Nat) (hs : s.length = 24) (ha : ∀ c ∈ s.take 8, c < 128) :
    ((∃ c ∈ (s.drop 8).take 8, 128 ≤ c) →
      ∃ o', o.setKey true (.text s) = (.error .valueError, o') ∧ o'.key = key ∧
        ∀ bs, (∀ x ∈ bs, IsBlock x) → ∃ o'', o'.encrypt true (.bytes bs.flatten) none none =
          .ok (resultT true (ecb (encipher3 (s.take 8) ((key.drop 8).take 8) (third key)) bs).flatten, o'')) ∧
    ((∀ c ∈ (s.drop 8).take 8, c < 128) → (∃ c ∈ s.drop 16, 128 ≤ c) →
      ∃ o', o.setKey true (.text s) = (.error .valueError, o') ∧ o'.key = key ∧
        ∀ bs, (∀ x ∈ bs, IsBlock x) → ∃ o'', o'.encrypt true (.bytes bs.flatten) none none =
          .ok (resultT true (ecb (encipher3 (s.take 8) ((s.drop 8).take 8) (third key)) bs).flatten, o'')) := by
  obtain ⟨p0, hp0⟩ : ∃ p0, PTriple.new key 0 [] none 1 = .ok p0 := by
    cases hn : PTriple.new key 0 [] none 1 with
    | ok p => exact ⟨p, rfl⟩
    | error e =>
      have := (newTriple_stands (py3 := true) (.inl rfl : Stands true (.bytes key) key) (.inl rfl : Stands true (.bytes []) []) standsNone 0 1).1 e hn
      rw [this] at h
      cases h
  obtain ⟨o1, h1, rfl, hu⟩ := (newTriple_stands (py3 := true) (.inl rfl : Stands true (.bytes key) key) (.inl rfl : Stands true (.bytes []) []) standsNone 0 1).2 p0 hp0
  rw [h1] at h
  injection h with h
  subst h
  have hl := has_new key 0 [] none 1 _ hp0
  have hlike := hl.like
  have hkey : o1.key = key := hl.key
  have hbase : o1.asTriple.base = ⟨0, [], none, 1⟩ := hlike.base
  have hmode : o1.mode = 0 := congrArg Base.mode hbase
  have hiv : o1.iv.chars = [] := congrArg Base.iv hbase
  have hpad : o1.padding = none := congrArg Base.padding hbase
  have hpm : o1.padmode = 1 := congrArg Base.padmode hbase
  have l1 : (s.take 8).length = 8 := by simp; omega
  have l2 : ((s.drop 8).take 8).length = 8 := by simp; omega
  have d1 := (C59_constructor (s.take 8) 0 [] none 1).1 ⟨l1, .inl rfl, by simp⟩
  have d2 := (C59_constructor ((s.drop 8).take 8) 0 [] none 1).1 ⟨l2, .inl rfl, by simp⟩
  have hset : o1.setKey true (.text s) = o1.setInner true (.text s) := by
    unfold TTriple.setKey
    rw [if_neg (show ¬ ((Data.text s).chars.length ≠ 24 ∧ (Data.text s).chars.length ≠ 16) by rintro ⟨h, _⟩; exact h hs),
      if_neg (by rw [hmode]; rintro ⟨h, _⟩; cases h), if_neg (by rw [hmode]; rintro ⟨h, _⟩; cases h)]
  have s1 : Stands true ((Data.text s).slice 0 8) (s.take 8) := .inr ⟨rfl, rfl, ha⟩
  have i1 : o1.inner true ((Data.text s).slice 0 8) = .ok ⟨⟨0, [], none, 1⟩, createSubKeys (s.take 8)⟩ := by
    rw [inner_stands o1 hu s1, hmode, hiv, hpad, hpm]
    exact d1
  have bad : ∀ d, Unusable true d → ∀ o : TTriple, o.inner true d = .error .valueError := by
    intro d hd o
    unfold TTriple.inner
    rw [newT_unusable (.inl hd)]
  have fin : ∀ (o' : TTriple) k1 k2 k3, UsableIV true o' → Like o'.asTriple ⟨0, [], none, 1⟩ k1 k2 k3 → ∀ bs : List (List Nat), (∀ x ∈ bs, IsBlock x) →
      ∃ o'', o'.encrypt true (.bytes bs.flatten) none none = .ok (resultT true (ecb (encipher3 k1 k2 k3) bs).flatten, o'') := by
    intro o' k1 k2 k3 hu' hL bs hb
    have hlen : bs.flatten.length % 8 = 0 := by
      clear hL hu'
      induction bs with
      | nil => rfl
      | cons x xs ih =>
        have hx := (hb x (by simp)).1
        have := ih (fun y hy => hb y (by simp [hy]))
        rw [List.flatten_cons, List.length_append]
        omega
    obtain ⟨t', ht'⟩ := (like_encrypt o'.asTriple _ k1 k2 k3 hL bs hb bs.flatten none none (padData_none ⟨0, [], none, 1⟩ rfl _ hlen)).1 (by decide)
    refine ⟨o'.withTriple t', ?_⟩
    rw [encryptT_stands o' hu' (.inl rfl) standsNone, ht']
    have : o'.mode = 0 := congrArg Base.mode hL.base
    show Except.ok (o'.result true _, o'.withTriple t') = _
    unfold TTriple.result
    rw [if_neg (by rw [this]; intro h; cases h)]
  constructor
  · intro hbad
    have u2 : Unusable true ((Data.text s).slice 8 16) := ⟨_, rfl, .inr hbad⟩
    refine ⟨⟨o1.key, o1.mode, o1.iv, o1.padding, o1.padmode, ⟨⟨0, [], none, 1⟩, createSubKeys (s.take 8)⟩, o1.key2, o1.key3⟩, ?_, hkey, fin _ _ _ _ hu ?_⟩
    · rw [hset]
      unfold TTriple.setInner
      rw [i1, bad _ u2 o1]
    · exact ⟨hbase, rfl, hlike.kn2, hlike.kn3, rfl, hlike.m2, hlike.m3⟩
  · intro ha2 hbad
    have s2 : Stands true ((Data.text s).slice 8 16) ((s.drop 8).take 8) := .inr ⟨rfl, rfl, ha2⟩
    have i2 : o1.inner true ((Data.text s).slice 8 16) = .ok ⟨⟨0, [], none, 1⟩, createSubKeys ((s.drop 8).take 8)⟩ := by
      rw [inner_stands o1 hu s2, hmode, hiv, hpad, hpm]
      exact d2
    have u3 : Unusable true ((Data.text s).slice 16 24) := ⟨_, rfl, .inr (by
      obtain ⟨c, hc, h⟩ := hbad
      exact ⟨c, by rw [List.take_of_length_le (by simp; omega)]; exact hc, h⟩)⟩
    refine ⟨⟨o1.key, o1.mode, o1.iv, o1.padding, o1.padmode, ⟨⟨0, [], none, 1⟩, createSubKeys (s.take 8)⟩,
      ⟨⟨0, [], none, 1⟩, createSubKeys ((s.drop 8).take 8)⟩, o1.key3⟩, ?_, hkey, fin _ _ _ _ hu ?_⟩
    · rw [hset]
      unfold TTriple.setInner
      rw [i1, i2]
      simp only
      unfold TTriple.setThird
      rw [if_neg (show ¬ (Data.text s).chars.length = 16 by show ¬ s.length = 16; omega), bad _ u3]
    · exact ⟨hbase, rfl, rfl, hlike.kn3, rfl, rfl, hlike.m3⟩

/-- C85. Python 3. Encrypting or decrypting empty data (padding mode PAD_NORMAL) gives the empty *text*, not bytes; a triple_des object in CBC mode
gives empty bytes. -/
theorem C85_empty (d : Des) (o : TTriple) (h1 : d.base.padmode = 1) (ho : o.padmode = 1) (hiv : o.iv.chars.length = 8) (hu : Stands true o.iv o.iv.chars) :
    d.encryptT true (.bytes []) none none = .ok (.text []) ∧ d.decryptT true (.bytes []) none none = .ok (.text []) ∧
    (∃ o', o.encrypt true (.bytes []) none none = .ok (if o.mode = 1 then .bytes [] else .text [], o')) ∧
    (∃ o', o.decrypt true (.bytes []) none none = .ok (if o.mode = 1 then .bytes [] else .text [], o')) := by
  have hp : ∀ b : Base, b.padmode = 1 → b.padData [] none none = .ok [] := by
    intro b hb
    unfold Base.padData
    simp only [Option.getD_none, hb]
    rfl
  have hc : ∀ (d : Des) e, d.crypt [] e = .ok [] := fun _ _ => rfl
  refine ⟨?_, rfl, ?_, ?_⟩
  · unfold Des.encryptT
    simp only [guard_stands (.inl rfl : Stands true (.bytes []) []), guardPad_stands standsNone, hp _ h1, hc]
    rfl
  · rw [encryptT_stands o hu (.inl rfl) standsNone]
    unfold Triple.encrypt
    simp only [bind, Except.bind, pure, Except.pure, hp o.asTriple.base ho]
    by_cases hm : o.mode = 1
    · rw [if_pos (show o.asTriple.base.mode = CBC from hm), if_pos hm]
      rw [show o.asTriple.base.iv = o.iv.chars from rfl, setIVs_ok _ _ hiv]
      refine ⟨_, congrArg (fun x => Except.ok (x, _)) ?_⟩
      show o.result true [] = _
      unfold TTriple.result
      rw [if_pos (show o.mode = CBC from hm)]
    · rw [if_neg (show ¬ o.asTriple.base.mode = CBC from hm), if_neg hm]
      refine ⟨_, congrArg (fun x => Except.ok (x, _)) ?_⟩
      show o.result true [] = _
      unfold TTriple.result
      rw [if_neg (show ¬ o.mode = CBC from hm)]
      rfl
  · rw [decryptT_stands o hu (.inl rfl) standsNone]
    unfold Triple.decrypt
    simp only [bind, Except.bind, pure, Except.pure]
    by_cases hm : o.mode = 1
    · rw [if_pos (show o.asTriple.base.mode = CBC from hm), if_pos hm]
      rw [show o.asTriple.base.iv = o.iv.chars from rfl, setIVs_ok _ _ hiv]
      refine ⟨_, congrArg (fun x => Except.ok (x, _)) ?_⟩
      show o.result true [] = _
      unfold TTriple.result
      rw [if_pos (show o.mode = CBC from hm)]
    · rw [if_neg (show ¬ o.asTriple.base.mode = CBC from hm), if_neg hm]
      refine ⟨_, congrArg (fun x => Except.ok (x, _)) ?_⟩
      show o.result true [] = _
      unfold TTriple.result
      rw [if_neg (show ¬ o.mode = CBC from hm)]
      rfl

/-- Text with `é`: the object is made, the new key refused, and its first third is in use. -/
example : Stands true (.text [49, 50, 51, 52, 53, 54, 55, 56]) [49, 50, 51, 52, 53, 54, 55, 56] ∧ Unusable true (.text [49, 233]) ∧ Unusable false (.text [49]) :=
  ⟨.inr ⟨rfl, rfl, by decide⟩, ⟨_, rfl, .inr ⟨233, by decide, by decide⟩⟩, ⟨_, rfl, .inl rfl⟩⟩

example : (TTriple.new true (.bytes (List.replicate 16 7)) 0 (.bytes []) none 1).toOption.isSome = true ∧
    ((List.replicate 8 65 ++ List.replicate 8 233 ++ List.replicate 8 65).drop 8).take 8 = List.replicate 8 233 := by
  constructor <;> decide +kernel

end Verif.Props
