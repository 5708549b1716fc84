import Verif.Props.Card
/-! C115: the graph of the objects on a card. Every attribute that holds an object holds one of the right kind, for every program; a TLV's tag and an APDU's
buffer are private to it; the only objects of the caller a call keeps are the list of an APDU, the keys of a pair and the key of an RSA cipher. -/
namespace Verif.Props
open Verif.Py Verif.Model Verif.Model.Card Verif.Spec.Card

/-- What a call does to kinds and references, `us` being all it changes or makes. -/
structure Tidy (w : Card) (s : Step) (us : List (Nat × Obj)) (u : Nat × Obj) : Prop where
  kind : w u.1 = .free ∨ Spec.Card.kind u.2 = Spec.Card.kind (w u.1)
  used : Spec.Card.kind u.2 ≠ .free
  held : ∀ sl q, (sl, q) ∈ holds u.2 → (sl, q) ∈ holds (w u.1) ∨
    (Slot.fits sl (Spec.Card.kind (w.put us q)) = true ∧ (w q = .free ∨ Keeps s sl u.1 q))
  once : ∀ u' ∈ us, ∀ sl q, (sl, q) ∈ holds u.2 → (sl, q) ∈ holds u'.2 → w q = .free → u.1 = u'.1
  lists : ∀ q, (.raw, q) ∈ holds u.2 → (.buffer, q) ∈ holds u.2 → (.raw, q) ∈ holds (w u.1) ∧ (.buffer, q) ∈ holds (w u.1)
  fixed : Spec.Card.kind (w u.1) = .apdu → holds u.2 = holds (w u.1)

/-- The same for an effect. -/
def AllTidy (w : Card) (s : Step) (e : Eff) : Prop := ∀ u ∈ e.2, Tidy w s e.2 u

theorem kind_setters (x : RSAKey) (pc ls : Bool) (l : List Int) (off len : Int) (t : TheKey) :
    (x.setExponent pc l off len).2.isPublic = x.isPublic ∧ (x.setModulus pc l off len).2.isPublic = x.isPublic ∧ (x.setTheKey pc ls t).2.isPublic = x.isPublic := by
  have key : ∀ y : RSAKey, (y.afterSet pc).2.isPublic = y.isPublic := by
    intro y
    unfold RSAKey.afterSet
    split
    · split
      · split <;> rfl
      · rfl
    · rfl
  refine ⟨?_, ?_, ?_⟩
  · unfold RSAKey.setExponent; rw [key]
  · unfold RSAKey.setModulus; split
    · rfl
    · rw [key]
  · unfold RSAKey.setTheKey; rw [key]

theorem card_not_apdu (x : Obj) (h : holds x = []) : kind x ≠ .apdu := by
  cases x with
  | key k => cases k <;> simp only [kind] <;> (try split) <;> simp
  | apdu => simp [holds] at h
  | _ => simp [kind]

theorem init_keeps (x : RSACipher) (w : Card) (k : Option Nat) (mode : Int) :
    (x.init (keyArg w k).2 (keyArg w k).1 mode).2.theKey = x.theKey ∨
    ∃ r y, k = some r ∧ w r = .key (.rsa y) ∧ (x.init (keyArg w k).2 (keyArg w k).1 mode).2.theKey = some r := by
  have hn : ∀ f, (x.init f .notKey mode).2.theKey = x.theKey := fun f => rfl
  cases k with
  | none => exact .inl rfl
  | some r =>
    by_cases hk : ∃ kk, w r = .key kk
    · obtain ⟨kk, hr⟩ := hk
      have hka : keyArg w (some r) = (.key r, fun _ => kk) := by simp only [keyArg, hr]
      rw [hka]
      unfold RSACipher.init CipherBase.init
      simp only
      by_cases h1 : ¬ kk.isInitialized
      · rw [if_pos h1]; exact .inl rfl
      · rw [if_neg h1]
        by_cases h2 : ¬ (mode = MODE_ENCRYPT ∨ mode = MODE_DECRYPT)
        · rw [if_pos h2]; exact .inl rfl
        · rw [if_neg h2]
          simp only
          cases kk with
          | rsa y => exact .inr ⟨r, y, rfl, hr, rfl⟩
          | des _ => exact .inl rfl
    · have hka : (keyArg w (some r)).1 = .notKey := by
        simp only [keyArg]
        split
        · next hh => exact absurd ⟨_, hh⟩ hk
        · rfl
      rw [hka]
      exact .inl (hn _)

theorem card_tidy (env : CryptoEnv) (fuel : Nat) (w : Card) (s : Step) : ∀ e, sem env fuel w s = some e → AllTidy w s e := by
  have hw : AllTidy w s wrong := fun u hu => by simp [wrong] at hu
  have h0 : ∀ o, AllTidy w s (o, []) := fun o u hu => by simp at hu
  -- objects that hold nothing
  have plain : ∀ us r x, (w r = .free ∨ Spec.Card.kind x = Spec.Card.kind (w r)) → Spec.Card.kind x ≠ .free → holds x = [] → Tidy w s us (r, x) := by
    intro us r x h1 h2 h3
    refine ⟨h1, h2, fun sl q hq => by simp [h3] at hq, fun u' _ sl q hq => by simp [h3] at hq, fun q hq => by simp [h3] at hq, fun hk => ?_⟩
    exfalso
    rcases h1 with h1 | h1
    · simp [h1, Spec.Card.kind] at hk
    · dsimp only at hk
      rw [← h1] at hk
      exact card_not_apdu x h3 hk
  -- objects that hold what they held
  have same : ∀ us r x, Spec.Card.kind x = Spec.Card.kind (w r) → Spec.Card.kind x ≠ .free → holds x = holds (w r) →
      (∀ u' ∈ us, ∀ sl q, (sl, q) ∈ holds x → (sl, q) ∈ holds u'.2 → w q = .free → r = u'.1) → Tidy w s us (r, x) := by
    intro us r x h1 h2 h3 h4
    exact ⟨.inr h1, h2, fun sl q hq => .inl (h3 ▸ hq), h4, fun q hq hq' => ⟨h3 ▸ hq, h3 ▸ hq'⟩, fun _ => h3⟩
  have h1 : ∀ o r x, (w r = .free ∨ Spec.Card.kind x = Spec.Card.kind (w r)) → Spec.Card.kind x ≠ .free → holds x = [] → AllTidy w s (o, [(r, x)]) := by
    intro o r x hk hf hx u hu
    simp only [List.mem_singleton] at hu
    subst hu
    exact plain _ _ _ hk hf hx
  have h2 : ∀ o r x r' x', Spec.Card.kind x = Spec.Card.kind (w r) → Spec.Card.kind x ≠ .free → holds x = [] →
      Spec.Card.kind x' = Spec.Card.kind (w r') → Spec.Card.kind x' ≠ .free → holds x' = [] → AllTidy w s (o, [(r, x), (r', x')]) := by
    intro o r x r' x' hk hf hx hk' hf' hx' u hu
    simp only [List.mem_cons, List.not_mem_nil, or_false] at hu
    rcases hu with rfl | rfl
    · exact plain _ _ _ (.inr hk) hf hx
    · exact plain _ _ _ (.inr hk') hf' hx'
  have htlv : ∀ k t o (x : BERTLV), w k = .tlv t → AllTidy w s (o, tlvTo k t x) := by
    intro k t o x ht u hu
    simp only [tlvTo, List.mem_singleton] at hu
    subst hu
    refine same _ _ _ (by rw [ht]; rfl) (by simp [Spec.Card.kind]) (by rw [ht]; rfl) ?_
    intro u' hu' _ _ _ _ _
    simp only [tlvTo, List.mem_singleton] at hu'
    subst hu'; rfl
  have hnewTLV : ∀ o k g tag (t : TLVRef), w k = .free ∨ (∃ t', w k = .tlv t') → w g = .free → k ≠ g → t.tag = some g → AllTidy w s (o, [(g, .tag tag), (k, .tlv t)]) := by
    intro o k g tag t hk hg hkg ht u hu
    simp only [List.mem_cons, List.not_mem_nil, or_false] at hu
    rcases hu with rfl | rfl
    · exact plain _ _ _ (.inl hg) (by simp [Spec.Card.kind]) rfl
    · have hh : ∀ sl q, (sl, q) ∈ holds (.tlv t) → sl = .tag ∧ q = g := by
        intro sl q hq
        simp only [holds, ht, Option.toList_some, List.map_cons, List.map_nil, List.mem_singleton, Prod.mk.injEq] at hq
        exact hq
      refine ⟨?_, by simp [Spec.Card.kind], ?_, ?_, ?_, ?_⟩
      · rcases hk with hk | ⟨t', hk⟩
        · exact .inl hk
        · exact .inr (by simp only [hk]; rfl)
      · intro sl q hq
        obtain ⟨rfl, rfl⟩ := hh sl q hq
        refine .inr ⟨?_, .inl hg⟩
        have : w.put [(q, .tag tag), (k, .tlv t)] q = .tag tag := by
          simp only [put]
          rw [if_neg (fun e => hkg e.symm)]; simp
        rw [this]; rfl
      · intro u' hu' sl q hq hq' _
        simp only [List.mem_cons, List.not_mem_nil, or_false] at hu'
        rcases hu' with rfl | rfl
        · simp [holds] at hq'
        · rfl
      · intro q hq; have := (hh _ _ hq).1; simp at this
      · intro h
        rcases hk with hk | ⟨t', hk⟩ <;> simp [hk, Spec.Card.kind] at h
  have hfound : ∀ k g x, AllTidy w s (found w k g x) := by
    intro k g x
    cases x with
    | error e => exact h0 _
    | ok x => cases x with
      | none => exact h0 _
      | some t =>
        simp only [found, makeTLV]
        split
        · exact make_ind hw fun hf => h1 _ _ _ (.inl hf) (by simp [Spec.Card.kind]) (by simp [holds])
        · split
          · next hk hg =>
            split
            · exact hw
            · next hne => exact hnewTLV _ _ _ _ _ (.inl hk) hg hne rfl
          · exact hw
  have hapdu : ∀ a r b raw buf op x, w a = .apdu r b x → w r = .array raw → w b = .array buf → AllTidy w s (apduStep a r b raw buf op x) := by
    intro a r b raw buf op x ha hr hb u hu
    have hnf : ∀ sl q, (sl, q) ∈ holds (.apdu r b x) → w q ≠ .free := by
      intro sl q hq
      simp only [holds, List.mem_cons, List.not_mem_nil, or_false, Prod.mk.injEq] at hq
      rcases hq with ⟨_, rfl⟩ | ⟨_, rfl⟩ <;> simp [hr, hb]
    have hA : ∀ us y, Tidy w s us (a, .apdu r b y) := fun us y =>
      same us a _ (by rw [ha]; rfl) (by simp [Spec.Card.kind]) (by rw [ha]; rfl) fun u' _ sl q hq _ hf => absurd hf (hnf sl q hq)
    cases x with
    | full y =>
      simp only [apduStep, List.mem_cons, List.not_mem_nil, or_false] at hu
      rcases hu with rfl | rfl | rfl
      · exact hA _ _
      · exact plain _ _ _ (.inr (by simp [hr, Spec.Card.kind])) (by simp [Spec.Card.kind]) rfl
      · exact plain _ _ _ (.inr (by simp [hb, Spec.Card.kind])) (by simp [Spec.Card.kind]) rfl
    | half y =>
      simp only [apduStep, List.mem_cons, List.not_mem_nil, or_false] at hu
      rcases hu with rfl | rfl
      · exact hA _ _
      · exact plain _ _ _ (.inr (by simp [hb, Spec.Card.kind])) (by simp [Spec.Card.kind]) rfl
  have hpair : ∀ o p i j x y q, (w p = .free ∨ ∃ q', w p = .pair q') → w i = .free → w j = .free → p ≠ i → p ≠ j → i ≠ j →
      x.isPublic = true → y.isPublic = false → q.publicKey = i → q.privateKey = j →
      AllTidy w s (o, [(i, .key (.rsa x)), (j, .key (.rsa y)), (p, .pair q)]) := by
    intro o p i j x y q hp hi hj hpi hpj hij hx hy hq1 hq2 u hu
    simp only [List.mem_cons, List.not_mem_nil, or_false] at hu
    rcases hu with rfl | rfl | rfl
    · exact plain _ _ _ (.inl hi) (by simp [Spec.Card.kind, hx]) rfl
    · exact plain _ _ _ (.inl hj) (by simp [Spec.Card.kind, hy]) rfl
    · have hh : ∀ sl r, (sl, r) ∈ holds (.pair q) → (sl = .publicKey ∧ r = i) ∨ (sl = .privateKey ∧ r = j) := by
        intro sl r hr
        simp only [holds, List.mem_cons, List.not_mem_nil, or_false, Prod.mk.injEq, hq1, hq2] at hr
        exact hr
      refine ⟨?_, by simp [Spec.Card.kind], ?_, ?_, ?_, ?_⟩
      · rcases hp with hp | ⟨q', hp⟩
        · exact .inl hp
        · exact .inr (by simp only [hp]; rfl)
      · intro sl r hr
        rcases hh sl r hr with ⟨rfl, rfl⟩ | ⟨rfl, rfl⟩
        · refine .inr ⟨?_, .inl hi⟩
          have : w.put [(r, .key (.rsa x)), (j, .key (.rsa y)), (p, .pair q)] r = .key (.rsa x) := by
            simp only [put]
            rw [if_neg (fun e => hpi e.symm), if_neg hij]; simp
          rw [this]; simp [Spec.Card.kind, hx, Slot.fits]
        · refine .inr ⟨?_, .inl hj⟩
          have : w.put [(i, .key (.rsa x)), (r, .key (.rsa y)), (p, .pair q)] r = .key (.rsa y) := by
            simp only [put]
            rw [if_neg (fun e => hpj e.symm)]; simp
          rw [this]; simp [Spec.Card.kind, hy, Slot.fits]
      · intro u' hu' sl r hr hr' _
        simp only [List.mem_cons, List.not_mem_nil, or_false] at hu'
        rcases hu' with rfl | rfl | rfl
        · simp [holds] at hr'
        · simp [holds] at hr'
        · rfl
      · intro r hr
        rcases hh _ _ hr with ⟨h, _⟩ | ⟨h, _⟩ <;> simp at h
      · intro h
        rcases hp with hp | ⟨q', hp⟩ <;> simp [hp, Spec.Card.kind] at h
  have hkk : ∀ kk : KeyObj, Spec.Card.kind (.key kk) ≠ .free := by
    intro kk
    cases kk with
    | rsa x => simp only [Spec.Card.kind]; split <;> simp
    | des x => simp [Spec.Card.kind]
  have htag : ∀ g t o x, w.tagAt g = some t → AllTidy w s (o, [(g, .tag x)]) := by
    intro g t o x hg
    refine h1 _ _ _ (.inr ?_) (by simp [Spec.Card.kind]) rfl
    unfold tagAt at hg
    split at hg
    · next hh => rw [hh]; rfl
    · simp at hg
  cases s
  case newAPDU a b r =>
    intro e he
    simp only [sem, Option.some.injEq] at he
    subst he
    split
    · next ha hb hm =>
      split
      · exact hw
      · next hab =>
        refine onArray_ind hw fun l hl => ?_
        have hra : r ≠ a := fun e => by rw [e, ha] at hl; simp at hl
        have hrb : r ≠ b := fun e => by rw [e, hb] at hl; simp at hl
        have hma : MODULE ≠ a := fun e => by rw [e, ha] at hm; simp at hm
        have hmb : MODULE ≠ b := fun e => by rw [e, hb] at hm; simp at hm
        have hmr : MODULE ≠ r := fun e => by rw [e, hl] at hm; simp at hm
        have hh : ∀ o x y, AllTidy w (.newAPDU a b r) (o, [(a, .apdu r b x), (b, .array y), (MODULE, .apduModule (some a))]) := by
          intro o x y u hu
          simp only [List.mem_cons, List.not_mem_nil, or_false] at hu
          have p1 : w.put [(a, .apdu r b x), (b, .array y), (MODULE, .apduModule (some a))] r = .array l := by
            simp only [put]
            rw [if_neg (fun e => hmr e.symm), if_neg hrb, if_neg hra, hl]
          have p2 : w.put [(a, .apdu r b x), (b, .array y), (MODULE, .apduModule (some a))] b = .array y := by
            simp only [put]
            rw [if_neg (fun e => hmb e.symm)]; simp
          have p3 : w.put [(a, .apdu r b x), (b, .array y), (MODULE, .apduModule (some a))] a = .apdu r b x := by
            simp only [put]
            rw [if_neg (fun e => hma e.symm), if_neg hab]; simp
          rcases hu with rfl | rfl | rfl
          · have hheld : ∀ sl q, (sl, q) ∈ holds (.apdu r b x) → (sl = .raw ∧ q = r) ∨ (sl = .buffer ∧ q = b) := by
              intro sl q hq
              simpa only [holds, List.mem_cons, List.not_mem_nil, or_false, Prod.mk.injEq] using hq
            refine ⟨.inl ha, by simp [Spec.Card.kind], ?_, ?_, ?_, ?_⟩
            · intro sl q hq
              rcases hheld sl q hq with ⟨rfl, rfl⟩ | ⟨rfl, rfl⟩
              · exact .inr ⟨by simp only [p1]; rfl, .inr (.newAPDU ..)⟩
              · exact .inr ⟨by simp only [p2]; rfl, .inl hb⟩
            · intro u' hu' sl q hq hq' _
              simp only [List.mem_cons, List.not_mem_nil, or_false] at hu'
              rcases hu' with rfl | rfl | rfl
              · rfl
              · simp [holds] at hq'
              · simp only [holds, Option.toList_some, List.map_cons, List.map_nil, List.mem_singleton, Prod.mk.injEq] at hq'
                rcases hheld sl q hq with ⟨h, _⟩ | ⟨h, _⟩ <;> (rw [h] at hq'; simp at hq')
            · intro q hq hq'
              rcases hheld _ q hq with ⟨_, h1⟩ | ⟨h, _⟩
              · rcases hheld _ q hq' with ⟨h, _⟩ | ⟨_, h2⟩
                · simp at h
                · exact absurd (h1.symm.trans h2) hrb
              · simp at h
            · intro h; simp [ha, Spec.Card.kind] at h
          · exact plain _ _ _ (.inl hb) (by simp [Spec.Card.kind]) rfl
          · have hheld : ∀ sl q, (sl, q) ∈ holds (.apduModule (some a)) → sl = .current ∧ q = a := by
              intro sl q hq
              simpa only [holds, Option.toList_some, List.map_cons, List.map_nil, List.mem_singleton, Prod.mk.injEq] using hq
            refine ⟨.inr (by simp only [hm]; rfl), by simp [Spec.Card.kind], ?_, ?_, ?_, ?_⟩
            · intro sl q hq
              obtain ⟨rfl, rfl⟩ := hheld sl q hq
              exact .inr ⟨by simp only [p3]; rfl, .inl ha⟩
            · intro u' hu' sl q hq hq' _
              simp only [List.mem_cons, List.not_mem_nil, or_false] at hu'
              rcases hu' with rfl | rfl | rfl
              · simp only [holds, List.mem_cons, List.not_mem_nil, or_false, Prod.mk.injEq] at hq'
                rw [(hheld sl q hq).1] at hq'; simp at hq'
              · simp [holds] at hq'
              · rfl
            · intro q hq; have := (hheld _ _ hq).1; simp at this
            · intro h; simp [hm, Spec.Card.kind] at h
        unfold newAPDU
        split
        · exact h0 _
        · split
          · exact h0 _
          · split
            · exact hh _ _ _
            · exact hh _ _ _
    · exact hw
  case apdu a op =>
    intro e he
    simp only [sem, Option.some.injEq] at he
    subst he
    exact onAPDU_ind hw fun r b raw buf x hx hr hb => hapdu a r b raw buf _ x hx hr hb
  case sendBytesLong a r' off len =>
    intro e he
    simp only [sem, Option.some.injEq] at he
    subst he
    exact onArray_ind hw fun d _ => onAPDU_ind hw fun r b raw buf x hx hr hb => hapdu a r b raw buf _ x hx hr hb
  case tlvGetInstance k g r off len =>
    intro e he
    simp only [sem, Option.some.injEq] at he
    subst he
    exact onArray_ind hw fun l _ => hfound _ _ _
  case tlvInit k g' g r off len =>
    simp only [sem]
    refine onTLV_ind hw fun t x ht _ _ e he => ?_
    simp only [Option.some.injEq] at he
    subst he
    refine onArray_ind hw fun l _ => ?_
    split
    · next hg' =>
      refine hnewTLV _ _ _ _ _ (.inr ⟨t, ht⟩) hg' (fun e => ?_) rfl
      rw [e, hg'] at ht; simp at ht
    · exact hw
  case tlvInitArray k r off len =>
    simp only [sem]
    refine onTLV_ind hw fun t x ht hx1 hx2 e he => ?_
    simp only [Option.some.injEq] at he
    subst he
    exact onArray_ind hw fun l _ => htlv _ _ _ _ ht
  case getTag k =>
    simp only [sem]
    refine onTLV_ind hw fun t x ht _ _ e he => ?_
    simp only [Option.some.injEq] at he
    subst he
    exact h0 _
  case tlvSize k =>
    simp only [sem]
    refine onTLV_ind hw fun t x ht _ _ e he => ?_
    simp only [Option.some.injEq] at he
    subst he
    exact h0 _
  case tlvLength k =>
    simp only [sem]
    refine onTLV_ind hw fun t x ht _ _ e he => ?_
    simp only [Option.some.injEq] at he
    subst he
    exact h0 _
  case findStatic r off r' off' =>
    intro e he
    simp only [sem] at he
    split at he
    · rw [Option.map_eq_some_iff] at he
      obtain ⟨y, _, rfl⟩ := he
      exact h0 _
    · injection he with he; subst he; exact hw
  case append k j =>
    simp only [sem]
    refine onTLV_ind hw fun t x ht _ _ => onTLV_ind hw fun t' x' _ _ _ e he => ?_
    simp only [Option.some.injEq] at he
    subst he
    exact htlv _ _ _ _ ht
  case find k' g' k g =>
    simp only [sem]
    refine onTLV_ind hw fun t x ht _ _ e he => ?_
    split at he
    · injection he with he; subst he; exact hw
    · rw [Option.map_eq_some_iff] at he
      obtain ⟨y, _, rfl⟩ := he
      exact hfound _ _ _
  case findNext k' g' k g j n =>
    simp only [sem]
    refine onTLV_ind hw fun t x ht _ _ => onTLV_ind hw fun t' x' _ _ _ e he => ?_
    split at he
    · injection he with he; subst he; exact hw
    · rw [Option.map_eq_some_iff] at he
      obtain ⟨y, _, rfl⟩ := he
      exact hfound _ _ _
  case getValue k r off =>
    simp only [sem]
    refine onTLV_ind hw fun t x ht _ _ e he => ?_
    simp only [Option.some.injEq] at he
    subst he
    exact onArray_ind hw fun l hl => h1 _ _ _ (.inr (by rw [hl]; rfl)) (by simp [Spec.Card.kind]) rfl
  case replaceValue k r off len =>
    simp only [sem]
    refine onTLV_ind hw fun t x ht _ _ e he => ?_
    simp only [Option.some.injEq] at he
    subst he
    exact onArray_ind hw fun l _ => htlv _ _ _ _ ht
  case tlvToBytes k r off =>
    simp only [sem]
    refine onTLV_ind hw fun t x ht _ _ e he => ?_
    simp only [Option.some.injEq] at he
    subst he
    exact onArray_ind hw fun l hl => h1 _ _ _ (.inr (by rw [hl]; rfl)) (by simp [Spec.Card.kind]) rfl
  case newPair p i j alg len =>
    intro e he
    simp only [sem, Option.some.injEq] at he
    subst he
    split
    · next hp hi hj =>
      split
      · exact hw
      · next hne =>
        split
        · exact hpair _ _ _ _ _ _ _ (.inl hp) hi hj (fun e => hne (.inl e)) (fun e => hne (.inr (.inl e))) (fun e => hne (.inr (.inr e))) rfl rfl rfl rfl
        · exact h0 _
    · exact hw
  case genKeyPair p i j t =>
    intro e he
    simp only [sem, Option.some.injEq] at he
    subst he
    split
    · next q hp hi hj =>
      split
      · split
        · exact hw
        · next hij =>
          unfold genPair
          split
          · exact h0 _
          · split
            · exact h0 _
            · split
              · split
                · exact h0 _
                · exact hpair _ _ _ _ _ _ _ (.inr ⟨q, hp⟩) hi hj (fun e => by rw [e, hi] at hp; simp at hp) (fun e => by rw [e, hj] at hp; simp at hp) hij
                    (kind_setters _ _ _ [] 0 0 _).2.2 (kind_setters _ _ _ [] 0 0 _).2.2 rfl rfl
              · exact h0 _
      · exact hw
    · exact hw
  case pairOf p i j =>
    intro e he
    simp only [sem, Option.some.injEq] at he
    subst he
    split
    · next a b ha hb =>
      split
      · exact h0 _
      · next kp hk =>
        refine make_ind hw fun hp u hu => ?_
        simp only [List.mem_singleton] at hu
        subst hu
        have hkinds : Spec.Card.kind (.key a) = .rsaPublic ∧ Spec.Card.kind (.key b) = .rsaPrivate := by
          unfold KeyPair.ofKeys at hk
          split at hk
          · next x =>
            split at hk
            · simp at hk
            · next hx =>
              split at hk
              · next y =>
                split at hk
                · simp at hk
                · next hy => exact ⟨by simp only [Spec.Card.kind]; rw [if_pos (by simpa using hx)], by simp only [Spec.Card.kind]; rw [if_neg hy]⟩
              · simp at hk
          · simp at hk
        have hpi : i ≠ p := fun e => by rw [e, hp] at ha; simp at ha
        have hpj : j ≠ p := fun e => by rw [e, hp] at hb; simp at hb
        refine ⟨.inl hp, by simp [Spec.Card.kind], ?_, ?_, ?_, ?_⟩
        · intro sl q hq
          simp only [holds, List.mem_cons, List.not_mem_nil, or_false, Prod.mk.injEq] at hq
          rcases hq with ⟨rfl, rfl⟩ | ⟨rfl, rfl⟩
          · refine .inr ⟨?_, .inr (.pairPublic ..)⟩
            simp only [put]
            rw [if_neg hpi, ha, hkinds.1]; rfl
          · refine .inr ⟨?_, .inr (.pairPrivate ..)⟩
            simp only [put]
            rw [if_neg hpj, hb, hkinds.2]; rfl
        · intro u' hu' _ _ _ _ _
          simp only [List.mem_singleton] at hu'; subst hu'; rfl
        · intro q hq; simp [holds] at hq
        · intro h; simp [hp, Spec.Card.kind] at h
    · exact hw
  case rsaInit c k mode =>
    intro e he
    simp only [sem, Option.some.injEq] at he
    subst he
    split
    · next x hx =>
      intro u hu
      simp only [List.mem_singleton] at hu
      subst hu
      refine ⟨.inr (by rw [hx]; rfl), by simp [Spec.Card.kind], ?_, ?_, ?_, ?_⟩
      · intro sl q hq
        simp only [holds] at hq
        rcases init_keeps x w k mode with h | ⟨r, y, hr, hy, h⟩
        · rw [h] at hq
          left
          show _ ∈ holds (w c)
          rw [hx]; exact hq
        · rw [h] at hq
          simp only [Option.toList_some, List.map_cons, List.map_nil, List.mem_singleton, Prod.mk.injEq] at hq
          obtain ⟨rfl, rfl⟩ := hq
          subst hr
          refine .inr ⟨?_, .inr (.rsaInit ..)⟩
          have hqc : q ≠ c := fun e => by rw [e, hx] at hy; simp at hy
          simp only [put]
          rw [if_neg hqc, hy]
          simp only [Spec.Card.kind]
          split <;> rfl
      · intro u' hu' _ _ _ _ _
        simp only [List.mem_singleton] at hu'; subst hu'; rfl
      · intro q hq
        simp [holds] at hq
      · intro h; simp [hx, Spec.Card.kind] at h
    · exact hw
  case rsaFinal c rnd r off len r' off' =>
    intro e he
    simp only [sem] at he
    split at he
    · next hr' =>
      rw [Option.map_eq_some_iff] at he
      obtain ⟨y, _, rfl⟩ := he
      exact h1 _ _ _ (.inr (by rw [hr']; rfl)) (by simp [Spec.Card.kind]) rfl
    · injection he with he; subst he; exact hw
  case buildKey k args =>
    intro e he
    simp only [sem, Option.some.injEq] at he
    subst he
    split
    · exact h0 _
    · exact h0 _
    · exact make_ind hw fun hf => h1 _ _ _ (.inl hf) (hkk _) rfl
  case setRSA k ex r off len =>
    intro e he
    simp only [sem, Option.some.injEq] at he
    subst he
    refine onArray_ind hw fun l _ => ?_
    split
    · next x hx =>
      have hks := kind_setters x env.pycrypto true l off len ⟨0, 0, 0⟩
      refine h1 _ _ _ (.inr ?_) ?_ rfl
      · rw [hx]; simp only [Spec.Card.kind]
        cases ex
        · simp only [Bool.false_eq_true, if_false, hks.2.1]
        · simp only [if_true, hks.1]
      · exact hkk _
    · exact h0 _
    · exact hw
  case setTheKey k t =>
    intro e he
    simp only [sem, Option.some.injEq] at he
    subst he
    split
    · next x hx =>
      refine h1 _ _ _ (.inr ?_) ?_ rfl
      · rw [hx]; simp only [Spec.Card.kind, (kind_setters x env.pycrypto env.longSuffix [] 0 0 t).2.2]
      · simp only [Spec.Card.kind]; split <;> simp
    · exact h0 _
    · exact hw
  case getCipher c args =>
    intro e he
    simp only [sem, Option.some.injEq] at he
    subst he
    split
    · exact h0 _
    · exact make_ind hw fun hf => h1 _ _ _ (.inl hf) (by simp [Spec.Card.kind]) rfl
    · exact make_ind hw fun hf => h1 _ _ _ (.inl hf) (by simp [Spec.Card.kind]) rfl
  all_goals
    intro e he
    simp only [sem, Option.some.injEq] at he
    subst he
    repeat' first
      | exact hw
      | exact h0 _
      | exact htag _ _ _ _ (by assumption)
      | exact h1 _ _ _ (.inl (by assumption)) (by simp [Spec.Card.kind]) rfl
      | exact h1 _ _ _ (.inr (by simp only [*, Spec.Card.kind])) (by simp [Spec.Card.kind]) rfl
      | exact h2 _ _ _ _ _ (by simp only [*, Spec.Card.kind]) (by simp [Spec.Card.kind]) rfl (by simp only [*, Spec.Card.kind]) (by simp [Spec.Card.kind]) rfl
      | refine onArray_ind hw fun l hl => ?_
      | refine onOptArray_ind hw fun l => ?_
      | refine onPinArg_ind hw fun l => ?_
      | refine onPIN_ind hw fun p o hp => ?_
      | refine onAPDU_ind hw fun r b raw buf x hx _ _ => ?_
      | refine make_ind hw fun hf => ?_
      | refine makeOrMap_ind hw (fun _ => h0 _) fun o hf => ?_
      | split

/-! ### What every card made by a program looks like -/

theorem kind_free {x : Obj} : kind x = .free ↔ x = .free := by
  cases x with
  | key k => cases k <;> simp only [kind] <;> (try split) <;> simp
  | _ => simp [kind]

theorem holds_refs (x : Obj) : (holds x).map Prod.snd = x.refs := by
  cases x with
  | apduModule c => cases c <;> rfl
  | tlv t => simp only [holds, Obj.refs]; cases t.tag <;> rfl
  | rsa c => simp only [holds, Obj.refs]; cases c.theKey <;> rfl
  | _ => rfl

theorem holds_mem {x : Obj} {sl : Slot} {q : Nat} (h : (sl, q) ∈ holds x) : q ∈ x.refs := by
  rw [← holds_refs]
  exact List.mem_map.2 ⟨_, h, rfl⟩

/-- The invariant. -/
structure CardSound (w : Card) : Prop where
  fits : ∀ r sl q, (sl, q) ∈ holds (w r) → sl.fits (kind (w q)) = true
  own : ∀ sl, sl = .tag ∨ sl = .buffer → ∀ r r' q, (sl, q) ∈ holds (w r) → (sl, q) ∈ holds (w r') → r = r'
  lists : ∀ r q, (.raw, q) ∈ holds (w r) → (.buffer, q) ∈ holds (w r) → False

theorem fits_used {sl : Slot} {k : Kind} (h : sl.fits k = true) : k ≠ .free := by
  intro e; subst e; cases sl <;> simp [Slot.fits] at h

theorem put_kind {env : CryptoEnv} {fuel : Nat} {w : Card} {s : Step} {e : Eff} (he : sem env fuel w s = some e) (r : Nat) (h : kind (w r) ≠ .free) :
    kind (w.put e.2 r) = kind (w r) := by
  rcases put_mem w e.2 r with h' | ⟨u, hu, rfl, h'⟩
  · rw [h']
  · rw [h']
    rcases (card_tidy env fuel w s e he u hu).kind with hk | hk
    · exact absurd (by rw [hk]; rfl) h
    · exact hk

theorem put_held {env : CryptoEnv} {fuel : Nat} {w : Card} {s : Step} {e : Eff} (he : sem env fuel w s = some e) {r : Nat} {sl : Slot} {q : Nat}
    (h : (sl, q) ∈ holds (w.put e.2 r)) :
    (sl, q) ∈ holds (w r) ∨ (sl.fits (kind (w.put e.2 q)) = true ∧ (w q = .free ∨ Keeps s sl r q)) := by
  rcases put_mem w e.2 r with h' | ⟨u, hu, rfl, h'⟩
  · rw [h'] at h; exact .inl h
  · rw [h'] at h; exact (card_tidy env fuel w s e he u hu).held sl q h

theorem card_sound_step {env : CryptoEnv} {fuel : Nat} {w : Card} {s : Step} {e : Eff} (he : sem env fuel w s = some e) (hw : CardSound w) : CardSound (w.put e.2) := by
  have hT := card_tidy env fuel w s e he
  have hfree : ∀ r sl q, (sl, q) ∈ holds (w r) → w q ≠ .free := fun r sl q h hq => fits_used (hw.fits r sl q h) (by rw [hq]; rfl)
  refine ⟨?_, ?_, ?_⟩
  · intro r sl q h
    rcases put_held he h with h' | h'
    · have hf := hw.fits r sl q h'
      rw [put_kind he q (fits_used hf)]; exact hf
    · exact h'.1
  · intro sl hsl r r' q h h'
    have nk : ∀ r, ¬ Keeps s sl r q := by
      intro r hk
      cases hk <;> rcases hsl with h | h <;> simp at h
    -- an object newly held is new, so it is held by what this call made
    have key : ∀ r r', (sl, q) ∈ holds (w.put e.2 r) → (sl, q) ∈ holds (w.put e.2 r') → (sl, q) ∉ holds (w r) → r = r' := by
      intro r r' h h' hn
      rcases put_held he h with h1 | ⟨_, h1 | h1⟩
      · exact absurd h1 hn
      · rcases put_mem w e.2 r with hp | ⟨u, hu, hur, hp⟩
        · rw [hp] at h; exact absurd h hn
        · rcases put_mem w e.2 r' with hp' | ⟨u', hu', hur', hp'⟩
          · rw [hp'] at h'; exact absurd h1 (hfree _ _ _ h')
          · rw [hp] at h; rw [hp'] at h'
            rw [← hur, ← hur']
            exact (hT u hu).once u' hu' sl q h h' h1
      · exact absurd h1 (nk r)
    by_cases h1 : (sl, q) ∈ holds (w r)
    · by_cases h2 : (sl, q) ∈ holds (w r')
      · exact hw.own sl hsl r r' q h1 h2
      · exact (key r' r h' h h2).symm
    · exact key r r' h h' h1
  · intro r q h h'
    rcases put_mem w e.2 r with hp | ⟨u, hu, hur, hp⟩
    · rw [hp] at h h'; exact hw.lists r q h h'
    · rw [hp] at h h'
      exact hw.lists _ q ((hT u hu).lists q h h').1 ((hT u hu).lists q h h').2

theorem card_sound_blank : CardSound blank := by
  have : ∀ r, holds (blank r) = [] := by
    intro r; simp only [blank]; split <;> rfl
  exact ⟨fun r sl q h => by simp [this] at h, fun _ _ r _ q h => by simp [this] at h, fun r q h => by simp [this] at h⟩

theorem run_induct {P : Card → Prop} {env : CryptoEnv} {fuel : Nat} (hstep : ∀ w s e, sem env fuel w s = some e → P w → P (w.put e.2)) :
    ∀ (prog : List Step) (w : Card) outs w', run env fuel w prog = some (outs, w') → P w → P w' := by
  intro prog
  induction prog with
  | nil => intro w outs w' h hP; simp only [run, Option.some.injEq, Prod.mk.injEq] at h; rw [← h.2]; exact hP
  | cons s ss ih =>
    intro w outs w' h hP
    simp only [run, step] at h
    cases he : sem env fuel w s with
    | none => simp [he] at h
    | some e =>
      simp only [he, Option.map_some, Option.map_eq_some_iff, Prod.mk.injEq] at h
      obtain ⟨x, hx, _, h2⟩ := h
      exact ih (w.put e.2) x.1 w' (by rw [← h2]; exact hx) (hstep w s e he hP)

theorem card_sound_run {env : CryptoEnv} {fuel : Nat} {prog : List Step} {outs : List (Except Err Out)} {w : Card}
    (h : run env fuel blank prog = some (outs, w)) : CardSound w :=
  run_induct (fun _ _ _ he => card_sound_step he) prog blank outs w h card_sound_blank

/-- **C115** (every attribute holds an object of its kind). On the card any program leaves, the current APDU is an APDU, an APDU's two lists are lists, a
TLV's tag is a tag, a pair's public key is an RSA public key and its private key an RSA private key, and the key of an RSA cipher is an RSA key; and an
object never becomes one of another kind (a public key never becomes a private one), whatever is called afterwards. -/
theorem C115_kinds {env : CryptoEnv} {fuel : Nat} {prog : List Step} {outs : List (Except Err Out)} {w : Card}
    (h : run env fuel blank prog = some (outs, w)) :
    (∀ r sl q, (sl, q) ∈ holds (w r) → sl.fits (kind (w q)) = true) ∧
    (∀ more outs' w', run env fuel w more = some (outs', w') → ∀ r, kind (w r) ≠ .free → kind (w' r) = kind (w r)) := by
  refine ⟨(card_sound_run h).fits, ?_⟩
  intro more outs' w' hm r hr
  exact run_induct (P := fun v => kind (v r) = kind (w r)) (fun v s e he hv => by rw [put_kind he r (by rw [hv]; exact hr), hv]) more w outs' w' hm rfl

/-- **C115** (what is private). On the card any program leaves, two TLVs never hold the same tag and two APDUs never the same buffer; the buffer of an APDU
is not the list it was made from. -/
theorem C115_private {env : CryptoEnv} {fuel : Nat} {prog : List Step} {outs : List (Except Err Out)} {w : Card}
    (h : run env fuel blank prog = some (outs, w)) :
    (∀ r r' q, (.tag, q) ∈ holds (w r) → (.tag, q) ∈ holds (w r') → r = r') ∧
    (∀ r r' q, (.buffer, q) ∈ holds (w r) → (.buffer, q) ∈ holds (w r') → r = r') ∧
    (∀ r p q, (.raw, p) ∈ holds (w r) → (.buffer, q) ∈ holds (w r) → p ≠ q) :=
  ⟨(card_sound_run h).own .tag (.inl rfl), (card_sound_run h).own .buffer (.inr rfl), fun r _ q hp hq e => (card_sound_run h).lists r q (e ▸ hp) hq⟩

/-- **C115** (what a call keeps). After any call, on any card, an object holds only what it held, or objects the call made, or the argument it is known to
keep: an APDU its list, a pair its two keys, an RSA cipher its key. -/
theorem C115_keeps {env : CryptoEnv} {fuel : Nat} {w : Card} {s : Step} {o : Except Err Out} {w' : Card} (hs : step env fuel w s = some (o, w'))
    (r : Nat) (sl : Slot) (q : Nat) (h : (sl, q) ∈ holds (w' r)) : (sl, q) ∈ holds (w r) ∨ (w q = .free ∧ w' q ≠ .free) ∨ Keeps s sl r q := by
  simp only [step, Option.map_eq_some_iff, Prod.mk.injEq] at hs
  obtain ⟨e, he, _, rfl⟩ := hs
  rcases put_held he h with h | ⟨hf, h | h⟩
  · exact .inl h
  · exact .inr (.inl ⟨h, fun e' => fits_used hf (by rw [e']; rfl)⟩)
  · exact .inr (.inr h)

/-- **C115** (the lists of an APDU). An APDU holds the same two lists for its whole life, whatever is called. -/
theorem C115_lists {env : CryptoEnv} {fuel : Nat} {w : Card} {more : List Step} {outs : List (Except Err Out)} {w' : Card}
    (h : run env fuel w more = some (outs, w')) (a : Nat) (ha : kind (w a) = .apdu) : holds (w' a) = holds (w a) := by
  refine (run_induct (P := fun v => kind (v a) = .apdu ∧ holds (v a) = holds (w a)) (fun v s e he hv => ⟨?_, ?_⟩) more w outs w' h ⟨ha, rfl⟩).2
  · rw [put_kind he a (by rw [hv.1]; simp), hv.1]
  · rw [← hv.2]
    rcases put_mem v e.2 a with hp | ⟨u, hu, rfl, hp⟩
    · rw [hp]
    · rw [hp]; exact (card_tidy env fuel v s e he u hu).fixed hv.1

/-- What is card_returned. -/
def Ret (w : Card) (s : Step) (e : Eff) : Prop :=
  ∀ q, e.1 = .ok (.ref q) → (w q = .free ∧ ∃ u ∈ e.2, u.1 = q) ∨ ∃ r sl, Reaches w s r ∧ (sl, q) ∈ holds (w r)

theorem card_returned (env : CryptoEnv) (fuel : Nat) (w : Card) (s : Step) : ∀ e, sem env fuel w s = some e → Ret w s e := by
  have hw : Ret w s wrong := fun q hq => by simp [wrong] at hq
  have h0 : ∀ us err, Ret w s (.error err, us) := fun us err q hq => by simp at hq
  have h1 : ∀ us, Ret w s (.ok .nothing, us) := fun us q hq => by simp at hq
  have h2 : ∀ us n, Ret w s (.ok (.int n), us) := fun us n q hq => by simp at hq
  have h3 : ∀ us b, Ret w s (.ok (.bool b), us) := fun us n q hq => by simp at hq
  have h4 : ∀ us (x : Except Err Int), Ret w s (x.map .int, us) := fun us x q hq => by cases x <;> simp [Except.map] at hq
  have h5 : ∀ us (x : Except Err Bool), Ret w s (x.map .bool, us) := fun us x q hq => by cases x <;> simp [Except.map] at hq
  have h6 : ∀ us {α : Type} (x : Except Err α), Ret w s (x.map fun _ => .nothing, us) := fun us _ x q hq => by cases x <;> simp [Except.map] at hq
  have hnew : ∀ q us, w q = .free → (∃ u ∈ us, u.1 = q) → Ret w s (.ok (.ref q), us) := by
    intro q us h h' q' hq
    simp only [Except.ok.injEq, Out.ref.injEq] at hq
    subst hq
    exact .inl ⟨h, h'⟩
  have hold : ∀ q us r sl, Reaches w s r → (sl, q) ∈ holds (w r) → Ret w s (.ok (.ref q), us) := by
    intro q us r sl h h' q' hq
    simp only [Except.ok.injEq, Out.ref.injEq] at hq
    subst hq
    exact .inr ⟨r, sl, h, h'⟩
  have hfound : ∀ k g x, Ret w s (found w k g x) := by
    intro k g x
    cases x with
    | error e => exact h0 _ _
    | ok x => cases x with
      | none => exact h1 _
      | some t =>
        simp only [found, makeTLV]
        split
        · exact make_ind hw fun hf => hnew _ _ hf ⟨_, List.mem_singleton.2 rfl, rfl⟩
        · split
          · next hk hg =>
            split
            · exact hw
            · exact hnew _ _ hk ⟨_, List.mem_cons_of_mem _ (List.mem_singleton.2 rfl), rfl⟩
          · exact hw
  have hapdu : ∀ a r b raw buf op x, Ret w s (apduStep a r b raw buf op x) := by
    intro a r b raw buf op x
    cases x <;> exact h4 _ _
  have hpin : ∀ i op, Ret w s (onPIN w i op) := by
    intro i op
    unfold onPIN
    split
    · unfold pinOut
      split
      · exact h5 _ _
      · exact h6 _ _
      all_goals first | exact h6 _ _ | exact h2 _ _ | exact h3 _ _ | exact h1 _ | exact h4 _ _
    · exact hw
  have hask : ∀ us (x : Except Err Out), (∀ q, x ≠ .ok (.ref q)) → Ret w s (x, us) := fun us x h q hq => absurd hq (h q)
  cases s
  case newAPDU a b r =>
    intro e he
    simp only [sem, Option.some.injEq] at he
    subst he
    split
    · next ha hb hm =>
      split
      · exact hw
      · refine onArray_ind hw fun l hl => ?_
        unfold newAPDU
        split
        · exact h0 _ _
        · split
          · exact h0 _ _
          · split
            · exact hnew _ _ ha ⟨_, List.mem_cons_self .., rfl⟩
            · exact h0 _ _
    · exact hw
  case askAPDU a q =>
    intro e he
    simp only [sem, Option.some.injEq] at he
    subst he
    refine onAPDU_ind hw fun r b raw buf x hx hr hb => hask _ _ fun q' => ?_
    have hb : ∀ y : Except Err Bool, (y.map Out.bool) ≠ .ok (.ref q') := fun y => by cases y <;> simp [Except.map]
    cases q <;> cases x <;> simp only [apduAsk] <;> first | exact hb _ | (cases get raw 0 <;> simp [Except.map]) | simp
  case claChannel =>
    intro e he
    simp only [sem, Option.some.injEq] at he
    subst he
    split
    · exact h0 _ _
    · refine onAPDU_ind hw fun r b raw buf x hx hr hb => hask _ _ fun q' => ?_
      cases get buf 0 <;> simp [Except.map]
  case append k j =>
    simp only [sem]
    refine onTLV_ind hw fun t x ht _ _ => onTLV_ind hw fun t' x' _ _ _ e he => ?_
    simp only [Option.some.injEq] at he
    subst he
    exact h4 _ _
  case find k' g' k g =>
    simp only [sem]
    refine onTLV_ind hw fun t x ht _ _ e he => ?_
    split at he
    · injection he with he; subst he; exact hw
    · rw [Option.map_eq_some_iff] at he
      obtain ⟨y, _, rfl⟩ := he
      exact hfound _ _ _
  case findNext k' g' k g j n =>
    simp only [sem]
    refine onTLV_ind hw fun t x ht _ _ => onTLV_ind hw fun t' x' _ _ _ e he => ?_
    split at he
    · injection he with he; subst he; exact hw
    · rw [Option.map_eq_some_iff] at he
      obtain ⟨y, _, rfl⟩ := he
      exact hfound _ _ _
  case askTag g q =>
    intro e he
    simp only [sem, Option.some.injEq] at he
    subst he
    split
    · exact hw
    · refine hask _ _ fun q' => ?_
      cases q <;> simp only [tagAsk, orNone] <;> (try split) <;> simp
  case askTagStatic r off q =>
    intro e he
    simp only [sem, Option.some.injEq] at he
    subst he
    refine onArray_ind hw fun l _ => hask _ _ fun q' => ?_
    have ho : ∀ y : Except Err (Option Int), (y.map orNone) ≠ .ok (.ref q') := fun y => by
      rcases y with e | _ | n <;> simp [Except.map, orNone]
    have hi : ∀ y : Except Err Int, (y.map Out.int) ≠ .ok (.ref q') := fun y => by cases y <;> simp [Except.map]
    have hb : ∀ y : Except Err Bool, (y.map Out.bool) ≠ .ok (.ref q') := fun y => by cases y <;> simp [Except.map]
    cases q <;> simp only [tagAskStatic] <;> first | exact ho _ | exact hb _ | exact hi _
  case findStatic r off r' off' =>
    intro e he
    simp only [sem] at he
    split at he
    · rw [Option.map_eq_some_iff] at he
      obtain ⟨y, _, rfl⟩ := he
      exact h4 _ _
    · injection he with he; subst he; exact hw
  case askKey k q =>
    intro e he
    simp only [sem, Option.some.injEq] at he
    subst he
    split
    · refine hask _ _ fun q' => ?_
      cases q <;> simp [keyAsk]
    · exact hw
  case newPair p i j alg len =>
    intro e he
    simp only [sem, Option.some.injEq] at he
    subst he
    split
    · next hp hi hj =>
      split
      · exact hw
      · split
        · exact hnew _ _ hp ⟨_, List.mem_cons_of_mem _ (List.mem_cons_of_mem _ (List.mem_singleton.2 rfl)), rfl⟩
        · exact h0 _ _
    · exact hw
  case genKeyPair p i j t =>
    intro e he
    simp only [sem, Option.some.injEq] at he
    subst he
    repeat' (first | exact hw | exact h0 _ _ | exact h1 _ | exact h6 _ _ | split | unfold genPair)
  case rsaFinal c rnd r off len r' off' =>
    intro e he
    simp only [sem] at he
    split at he
    · rw [Option.map_eq_some_iff] at he
      obtain ⟨y, _, rfl⟩ := he
      exact h4 _ _
    · injection he with he; subst he; exact hw
  case getBuffer a =>
    intro e he
    simp only [sem, Option.some.injEq] at he
    subst he
    exact onAPDU_ind hw fun r b raw buf x hx hr hb => hold _ _ a .buffer (.named _ (by simp [names])) (by rw [hx]; simp [holds])
  case currentAPDU =>
    intro e he
    simp only [sem, Option.some.injEq] at he
    subst he
    split
    · exact h1 _
    · next a ha =>
      refine hold _ _ MODULE .current (.named _ (by simp [names])) ?_
      unfold current at ha
      split at ha
      · next c hc => rw [hc, ha]; simp [holds]
      · simp at ha
  case currentAPDUBuffer =>
    intro e he
    simp only [sem, Option.some.injEq] at he
    subst he
    split
    · exact h0 _ _
    · next a ha =>
      refine onAPDU_ind hw fun r b raw buf x hx hr hb => hold _ _ a .buffer (.held MODULE a (.named _ (by simp [names])) ?_) (by rw [hx]; simp [holds])
      unfold current at ha
      split at ha
      · next c hc => rw [hc, ha]; simp [Obj.refs]
      · simp at ha
  case getTag k =>
    simp only [sem]
    refine onTLV_ind hw fun t x ht _ _ e he => ?_
    simp only [Option.some.injEq] at he
    subst he
    cases htag : t.tag with
    | none => exact h1 _
    | some g => exact hold _ _ k .tag (.named _ (by simp [names])) (by rw [ht]; simp [holds, htag])
  case getPublic p =>
    intro e he
    simp only [sem, Option.some.injEq] at he
    subst he
    split
    · next q hq => exact hold _ _ p .publicKey (.named _ (by simp [names])) (by rw [hq]; simp [holds])
    · exact hw
  case getPrivate p =>
    intro e he
    simp only [sem, Option.some.injEq] at he
    subst he
    split
    · next q hq => exact hold _ _ p .privateKey (.named _ (by simp [names])) (by rw [hq]; simp [holds])
    · exact hw
  all_goals first
    | (intro e he
       simp only [sem, Option.some.injEq] at he
       subst he)
    | (simp only [sem]
       refine onTLV_ind hw fun t x ht _ _ e he => ?_
       try (simp only [Option.some.injEq] at he; subst he))
    | skip
  all_goals
    repeat' first
      | exact hw
      | exact h0 _ _
      | exact h1 _
      | exact h2 _ _
      | exact h3 _ _
      | exact h4 _ _
      | exact h5 _ _
      | exact h6 _ _
      | exact hfound _ _ _
      | exact hapdu _ _ _ _ _ _ _
      | exact hnew _ _ (by assumption) ⟨_, List.mem_singleton.2 rfl, rfl⟩
      | refine onArray_ind hw fun l hl => ?_
      | refine onOptArray_ind hw fun l => ?_
      | refine onPinArg_ind hw fun l => ?_
      | exact hpin _ _
      | refine onAPDU_ind hw fun r b raw buf x hx _ _ => ?_
      | refine make_ind hw fun hf => ?_
      | refine makeOrMap_ind hw (fun _ => h0 _ _) fun o hf => ?_
      | split

/-- **C115** (what a call returns). When a call returns an object, it is one the call made, or one that an object it was given holds. -/
theorem C115_returns {env : CryptoEnv} {fuel : Nat} {w : Card} {s : Step} {q : Nat} {w' : Card} (hs : step env fuel w s = some (.ok (.ref q), w')) :
    (w q = .free ∧ w' q ≠ .free) ∨ ∃ r sl, Reaches w s r ∧ (sl, q) ∈ holds (w r) := by
  simp only [step, Option.map_eq_some_iff, Prod.mk.injEq] at hs
  obtain ⟨e, he, h1, rfl⟩ := hs
  rcases card_returned env fuel w s e he q h1 with ⟨hf, u, hu, rfl⟩ | h
  · refine .inl ⟨hf, ?_⟩
    have : ∀ (us : List (Nat × Obj)) (v : Card), (∀ u ∈ us, kind u.2 ≠ .free) → (∃ x ∈ us, x.1 = u.1) ∨ v u.1 ≠ .free → v.put us u.1 ≠ .free := by
      intro us
      induction us with
      | nil => intro v _ h; rcases h with ⟨x, hx, _⟩ | h
               · simp at hx
               · exact h
      | cons x us ih =>
        intro v hk h
        obtain ⟨r, o⟩ := x
        have hk' : ∀ u ∈ us, kind u.2 ≠ .free := fun y hy => hk y (List.mem_cons_of_mem _ hy)
        by_cases hr : u.1 = r
        · refine ih _ hk' (.inr ?_)
          rw [if_pos hr]
          intro e'
          exact hk (r, o) (List.mem_cons_self ..) (kind_free.2 e')
        · refine ih _ hk' ?_
          rcases h with ⟨x, hx, hxu⟩ | h
          · rcases List.mem_cons.1 hx with rfl | hx
            · exact absurd hxu.symm hr
            · exact .inl ⟨x, hx, hxu⟩
          · exact .inr (by rw [if_neg hr]; exact h)
    exact this e.2 w (fun y hy => (card_tidy env fuel w s e he y hy).used) (.inl ⟨u, hu, rfl⟩)
  · exact .inr h

/-! ### An example -/

private def anEnv : CryptoEnv := ⟨true, true, ⟨fun _ _ => .error .typeError, fun _ _ => .error .typeError⟩, fun _ _ => []⟩

/-- An APDU, a second one made from the buffer of the first, a TLV with a tag, a pair with generated keys, a second pair of the same keys and a cipher
with the public one. -/
private def graph : List Step :=
  [.newArray 1 [0, 0xA4, 4, 0, 2, 9, 9], .newAPDU 2 3 1, .newAPDU 4 5 3, .currentAPDUBuffer, .newArray 6 [5, 1, 7], .tlvGetInstance 7 8 6 0 (some 3), .getTag 7,
   .newPair 10 11 12 1 512, .genKeyPair 10 13 14 ⟨33, 3, 7⟩, .getPublic 10, .pairOf 15 13 14, .getCipher 16 [10, 0], .rsaInit 16 (some 13) 2]

private def after : Option (List (Except Err Out) × List (List (Slot × Nat))) :=
  (run anEnv 10 blank graph).map fun x => (x.1, [MODULE, 2, 4, 7, 10, 15, 16].map fun r => holds (x.2 r))

/-- Keys and lists are shared where `Keeps` says so; the tag and the buffers are not. -/
example : after.map Prod.snd = some
    [[(.current, 4)], [(.raw, 1), (.buffer, 3)], [(.raw, 3), (.buffer, 5)], [(.tag, 8)], [(.publicKey, 13), (.privateKey, 14)],
     [(.publicKey, 13), (.privateKey, 14)], [(.theKey, 13)]] := by decide +kernel

example : after.map (fun x => x.1.drop 9) = some [.ok (.ref 13), .ok (.ref 15), .ok (.ref 16), .ok .nothing] := by decide +kernel

/-- The hypotheses of the theorems hold for it. -/
example : ∃ outs w, run anEnv 10 blank graph = some (outs, w) ∧ ∀ r sl q, (sl, q) ∈ holds (w r) → sl.fits (kind (w q)) = true := by
  have h : (run anEnv 10 blank graph).isSome = true := by decide +kernel
  obtain ⟨x, hx⟩ := Option.isSome_iff_exists.1 h
  exact ⟨x.1, x.2, hx, (C115_kinds (prog := graph) (outs := x.1) hx).1⟩

end Verif.Props
