import Verif.Props.DESFull
/-! C113 for triple_des with pads of several bytes: the full model of pyDes objects and the model of C101 agree. -/
namespace Verif.Props
open Verif.Py Verif.Model Verif.Model.PyDes
namespace DP

/-- The `des` object of C101 as an object of the full model. -/
def fd (d : MDes) (key : List Nat) : FDes := ⟨⟨d.mode, some (.bytes d.iv), some (.bytes d.padding), some d.padmode⟩, key, d.Kn⟩

/-- The `triple_des` object of C101 as an object of the full model. -/
def ft (t : MTriple) (key a b c : List Nat) : FTriple :=
  ⟨⟨t.mode, some (.bytes t.iv), some (.bytes t.padding), some t.padmode⟩, key, fd t.key1 a, fd t.key2 b, fd t.key3 c⟩

theorem guardIf_bytes (py3 : Bool) (x : List Nat) : guardIf py3 (some (.bytes x)) = .ok (some (.bytes x)) := by
  unfold guardIf; simp only [Data.guard]; split <;> rfl

theorem fd_crypt (py3 : Bool) (d : MDes) (key x : List Nat) (e : Bool) : FDes.crypt py3 (fd d key) x (if e then 0 else 1) = d.crypt py3 x e := by
  obtain ⟨mode, iv, pad, padmode, Kn⟩ := d
  unfold FDes.crypt MDes.crypt fd
  simp only [optChars, Data.chars, DF.loopT]
  by_cases hx : x = []
  · rw [if_pos hx, if_pos hx]
  rw [if_neg hx, if_neg hx]
  by_cases h8 : x.length % 8 ≠ 0
  · rw [if_pos h8, if_pos h8]
    cases e with
    | false => rfl
    | true =>
      by_cases hp : pad = []
      · subst hp; rfl
      · simp [hp]
  · rw [if_neg h8, if_neg h8]
    cases e <;> simp

theorem fbase_new (py3 : Bool) (mode : Nat) (iv pad : List Nat) (padmode : Nat) :
    FBase.new py3 mode (some (.bytes iv)) (some (.bytes pad)) (some padmode) =
      if pad ≠ [] ∧ padmode = PAD_PKCS5 then .error .valueError
      else if iv ≠ [] ∧ iv.length ≠ 8 then .error .valueError
      else .ok ⟨mode, some (.bytes iv), some (.bytes pad), some padmode⟩ := by
  unfold FBase.new
  rw [guardIf_bytes, guardIf_bytes]
  show (if _ then _ else _) = _
  by_cases h1 : pad ≠ [] ∧ padmode = PAD_PKCS5
  · rw [if_pos h1]
    exact if_pos (show optChars (some (Data.bytes pad)) ≠ [] ∧ some padmode = some PAD_PKCS5 from ⟨h1.1, by rw [h1.2]⟩)
  rw [if_neg h1, if_neg (show ¬ (optChars (some (Data.bytes pad)) ≠ [] ∧ some padmode = some PAD_PKCS5) from fun h => h1 ⟨h.1, by simpa using h.2⟩)]
  by_cases h2 : iv ≠ [] ∧ iv.length ≠ 8
  · rw [if_pos h2]
    exact if_pos (show optChars (some (Data.bytes iv)) ≠ [] ∧ (optChars (some (Data.bytes iv))).length ≠ 8 from h2)
  · rw [if_neg h2]
    exact if_neg (show ¬ (optChars (some (Data.bytes iv)) ≠ [] ∧ (optChars (some (Data.bytes iv))).length ≠ 8) from h2)

theorem fd_new (py3 : Bool) (key : List Nat) (mode : Nat) (iv pad : List Nat) (padmode : Nat) :
    FDes.new py3 (.bytes key) mode (some (.bytes iv)) (some (.bytes pad)) (some padmode) = (MDes.new key mode iv pad padmode).map (fun d => fd d key) := by
  unfold FDes.new MDes.new
  by_cases h0 : key.length ≠ 8
  · rw [if_pos (show (Data.bytes key).chars.length ≠ 8 from h0), if_pos h0]; rfl
  rw [if_neg (show ¬ (Data.bytes key).chars.length ≠ 8 from h0), if_neg h0, fbase_new]
  by_cases h1 : pad ≠ [] ∧ padmode = PAD_PKCS5
  · rw [if_pos h1, if_pos h1]; rfl
  rw [if_neg h1, if_neg h1]
  by_cases h2 : iv ≠ [] ∧ iv.length ≠ 8
  · rw [if_pos h2, if_pos h2]; rfl
  rw [if_neg h2, if_neg h2]; rfl

theorem fd_setIV (py3 : Bool) (d : MDes) (key x : List Nat) :
    (∃ d', d.setIV x = .ok d' ∧ (fd d key).setIV py3 (some (.bytes x)) = (.ok (), fd d' key)) ∨
    ∃ e o, d.setIV x = .error e ∧ (fd d key).setIV py3 (some (.bytes x)) = (.error e, o) := by
  unfold MDes.setIV FDes.setIV FBase.setIV
  by_cases h : x = [] ∨ x.length ≠ 8
  · rw [if_pos h]; exact .inr ⟨_, fd d key, rfl, by simp only [if_pos (show (Data.bytes x).chars = [] ∨ (Data.bytes x).chars.length ≠ 8 from h)]⟩
  · rw [if_neg h]; exact .inl ⟨_, rfl, by simp only [if_neg (show ¬ ((Data.bytes x).chars = [] ∨ (Data.bytes x).chars.length ≠ 8) from h)]; rfl⟩

theorem ft_setIVs (py3 : Bool) (t : MTriple) (key a b c x : List Nat) :
    (∃ t', t.setIVs x = .ok t' ∧ (ft t key a b c).setIVs py3 (some (.bytes x)) = (.ok (), ft t' key a b c) ∧ t'.padding = t.padding ∧ t'.padmode = t.padmode) ∨
    ∃ e o, t.setIVs x = .error e ∧ (ft t key a b c).setIVs py3 (some (.bytes x)) = (.error e, o) := by
  unfold MTriple.setIVs FTriple.setIVs
  simp only [ft]
  rcases fd_setIV py3 t.key1 a x with ⟨d1, e1, f1⟩ | ⟨e, o, e1, f1⟩
  · rcases fd_setIV py3 t.key2 b x with ⟨d2, e2, f2⟩ | ⟨e, o, e2, f2⟩
    · rcases fd_setIV py3 t.key3 c x with ⟨d3, e3, f3⟩ | ⟨e, o, e3, f3⟩
      · simp only [e1, f1, e2, f2, e3, f3]; exact .inl ⟨_, rfl, rfl, rfl, rfl⟩
      · simp only [e1, f1, e2, f2, e3, f3]; exact .inr ⟨_, _, rfl, rfl⟩
    · simp only [e1, f1, e2, f2]; exact .inr ⟨_, _, rfl, rfl⟩
  · simp only [e1, f1]; exact .inr ⟨_, _, rfl, rfl⟩

theorem ft_crypt3 (py3 : Bool) (x y z : MDes) (a b c m : List Nat) (e : Bool) :
    crypt3 py3 (fd x a) (fd y b) (fd z c) (if e then 0 else 1) m = (do let p ← x.crypt py3 m e; let q ← y.crypt py3 p (!e); z.crypt py3 q e) := by
  unfold crypt3
  rw [fd_crypt]
  cases x.crypt py3 m e with
  | error e => rfl
  | ok p =>
    have h2 : FDes.crypt py3 (fd y b) p (1 - if e then 0 else 1) = y.crypt py3 p (!e) := by
      rw [← fd_crypt]; cases e <;> rfl
    simp only [h2]
    show _ = (do let q ← y.crypt py3 p (!e); z.crypt py3 q e)
    cases y.crypt py3 p (!e) with
    | error e => rfl
    | ok q => simp only [fd_crypt]; rfl

theorem ft_encLoop (py3 : Bool) (key a b c : List Nat) (bs : List (List Nat)) : ∀ t : MTriple,
    (∃ r t', t.encLoop py3 bs = .ok (r, t') ∧ (ft t key a b c).encLoop py3 bs = (.ok r, ft t' key a b c)) ∨
    ∃ e o, t.encLoop py3 bs = .error e ∧ (ft t key a b c).encLoop py3 bs = (.error e, o) := by
  induction bs with
  | nil => exact fun t => .inl ⟨_, _, rfl, rfl⟩
  | cons x bs ih =>
    intro t
    unfold MTriple.encLoop FTriple.encLoop
    have h3 := ft_crypt3 py3 t.key1 t.key2 t.key3 a b c x true
    rw [show (if true = true then 0 else 1) = 0 from rfl] at h3
    simp only [ft] at h3 ⊢
    rw [h3]
    cases h1 : t.key1.crypt py3 x true with
    | error e => exact .inr ⟨_, _, rfl, rfl⟩
    | ok p =>
      cases h2 : t.key2.crypt py3 p false with
      | error e => simp only [bind, Except.bind, Bool.not_true, h2]; exact .inr ⟨_, _, rfl, rfl⟩
      | ok q =>
        cases h4 : t.key3.crypt py3 q true with
        | error e => simp only [bind, Except.bind, Bool.not_true, h2, h4]; exact .inr ⟨_, _, rfl, rfl⟩
        | ok r =>
          simp only [bind, Except.bind, Bool.not_true, h2, h4]
          rcases ft_setIVs py3 t key a b c r with ⟨t', e1, f1, _⟩ | ⟨e, o, e1, f1⟩
          · simp only [ft] at f1
            simp only [e1, f1]
            rcases ih t' with ⟨r', t'', e2, f2⟩ | ⟨e, o, e2, f2⟩
            · simp only [ft] at f2; simp only [e2, f2]; exact .inl ⟨_, _, rfl, rfl⟩
            · simp only [ft] at f2; simp only [e2, f2]; exact .inr ⟨_, _, rfl, rfl⟩
          · simp only [ft] at f1
            simp only [e1, f1]; exact .inr ⟨_, _, rfl, rfl⟩

theorem ft_decLoop (py3 : Bool) (key a b c : List Nat) (bs : List (List Nat)) : ∀ t : MTriple,
    (∃ r t', t.decLoop py3 bs = .ok (r, t') ∧ (ft t key a b c).decLoop py3 bs = (.ok r, ft t' key a b c) ∧ t'.padding = t.padding ∧ t'.padmode = t.padmode) ∨
    ∃ e o, t.decLoop py3 bs = .error e ∧ (ft t key a b c).decLoop py3 bs = (.error e, o) := by
  induction bs with
  | nil => exact fun t => .inl ⟨_, _, rfl, rfl, rfl, rfl⟩
  | cons x bs ih =>
    intro t
    unfold MTriple.decLoop FTriple.decLoop
    have h3 := ft_crypt3 py3 t.key3 t.key2 t.key1 c b a x false
    rw [show (if false = true then 0 else 1) = 1 from rfl] at h3
    simp only [ft] at h3 ⊢
    rw [h3]
    cases h1 : t.key3.crypt py3 x false with
    | error e => exact .inr ⟨_, _, rfl, rfl⟩
    | ok p =>
      cases h2 : t.key2.crypt py3 p true with
      | error e => simp only [bind, Except.bind, Bool.not_false, h2]; exact .inr ⟨_, _, rfl, rfl⟩
      | ok q =>
        cases h4 : t.key1.crypt py3 q false with
        | error e => simp only [bind, Except.bind, Bool.not_false, h2, h4]; exact .inr ⟨_, _, rfl, rfl⟩
        | ok r =>
          simp only [bind, Except.bind, Bool.not_false, h2, h4]
          rcases ft_setIVs py3 t key a b c x with ⟨t', e1, f1, p1, q1⟩ | ⟨e, o, e1, f1⟩
          · simp only [ft] at f1
            simp only [e1, f1]
            rcases ih t' with ⟨r', t'', e2, f2, p2, q2⟩ | ⟨e, o, e2, f2⟩
            · simp only [ft] at f2; simp only [e2, f2]; exact .inl ⟨_, _, rfl, rfl, p2.trans p1, q2.trans q1⟩
            · simp only [ft] at f2; simp only [e2, f2]; exact .inr ⟨_, _, rfl, rfl⟩
          · simp only [ft] at f1
            simp only [e1, f1]; exact .inr ⟨_, _, rfl, rfl⟩

theorem ft_new (py3 : Bool) (key : List Nat) (mode : Nat) (iv pad : List Nat) (padmode : Nat) :
    (FTriple.new py3 (.bytes key) mode (some (.bytes iv)) (some (.bytes pad)) (some padmode) = .error .valueError ∧ MTriple.new key mode iv pad padmode = .error .valueError) ∨
    ∃ t a b c, MTriple.new key mode iv pad padmode = .ok t ∧
      FTriple.new py3 (.bytes key) mode (some (.bytes iv)) (some (.bytes pad)) (some padmode) = .ok (ft t key a b c) ∧ t.padding = pad ∧ t.padmode = padmode := by
  unfold FTriple.new MTriple.new
  rw [fbase_new]
  by_cases h1 : pad ≠ [] ∧ padmode = PAD_PKCS5
  · rw [if_pos h1, if_pos h1]; exact .inl ⟨rfl, rfl⟩
  rw [if_neg h1, if_neg h1]
  by_cases h2 : iv ≠ [] ∧ iv.length ≠ 8
  · rw [if_pos h2, if_pos h2]; exact .inl ⟨rfl, rfl⟩
  rw [if_neg h2, if_neg h2]
  simp only [FTriple.setKey]
  by_cases h3 : key.length ≠ 24 ∧ key.length ≠ 16
  · rw [if_pos (show (Data.bytes key).chars.length ≠ 24 ∧ (Data.bytes key).chars.length ≠ 16 from h3), if_pos h3]; exact .inl ⟨rfl, rfl⟩
  rw [if_neg (show ¬ ((Data.bytes key).chars.length ≠ 24 ∧ (Data.bytes key).chars.length ≠ 16) from h3), if_neg h3]
  have hlen : 16 ≤ key.length := by
    by_cases h : key.length = 24
    · omega
    · by_cases h' : key.length = 16
      · omega
      · exact absurd ⟨h, h'⟩ h3
  have main : ∀ iv' : List Nat, (iv' = [] ∨ iv'.length = 8) → (FTriple.setInner py3 ⟨⟨mode, some (.bytes iv'), some (.bytes pad), some padmode⟩, [], noFDes, noFDes, noFDes⟩ (.bytes key)) =
      (.ok (), ft ⟨mode, iv', pad, padmode, ⟨mode, iv', pad, padmode, createSubKeys (key.take 8)⟩, ⟨mode, iv', pad, padmode, createSubKeys ((key.drop 8).take 8)⟩,
        ⟨mode, iv', pad, padmode, createSubKeys (if key.length = 16 then key.take 8 else key.drop 16)⟩⟩ key (key.take 8) ((key.drop 8).take 8) (if key.length = 16 then key.take 8 else key.drop 16)) ∧
      (do
        let k1 ← MDes.new (key.take 8) mode iv' pad padmode
        let k2 ← MDes.new ((key.drop 8).take 8) mode iv' pad padmode
        let k3 ← if key.length = 16 then pure k1 else MDes.new (key.drop 16) mode iv' pad padmode
        return (⟨mode, iv', pad, padmode, k1, k2, k3⟩ : MTriple)) =
      .ok ⟨mode, iv', pad, padmode, ⟨mode, iv', pad, padmode, createSubKeys (key.take 8)⟩, ⟨mode, iv', pad, padmode, createSubKeys ((key.drop 8).take 8)⟩,
        ⟨mode, iv', pad, padmode, createSubKeys (if key.length = 16 then key.take 8 else key.drop 16)⟩⟩ := by
    intro iv' hv
    have hv' : ¬ (iv' ≠ [] ∧ iv'.length ≠ 8) := by rintro ⟨x, y⟩; rcases hv with h | h; exact x h; exact y h
    have hn : ∀ k : List Nat, k.length = 8 → MDes.new k mode iv' pad padmode = .ok ⟨mode, iv', pad, padmode, createSubKeys k⟩ := by
      intro k hk
      unfold MDes.new
      rw [if_neg (by omega), if_neg h1, if_neg hv']
    have l1 : (key.take 8).length = 8 := by rw [List.length_take]; omega
    have l2 : ((key.drop 8).take 8).length = 8 := by rw [List.length_take, List.length_drop]; omega
    unfold FTriple.setInner FTriple.inner
    simp only [Data.slice, Data.chars, Data.guard, List.drop_zero, Nat.sub_zero, fd_new]
    rw [show 16 - 8 = 8 from rfl, hn _ l1, hn _ l2]
    simp only [Except.map]
    by_cases h16 : key.length = 16
    · simp only [if_pos h16]; exact ⟨rfl, rfl⟩
    · have h24 : key.length = 24 := by
        by_cases h : key.length = 24
        · exact h
        · exact absurd ⟨h, h16⟩ h3
      have l3 : (key.drop 16).length = 8 := by rw [List.length_drop]; omega
      have e3 : (key.drop 16).take (24 - 16) = key.drop 16 := List.take_of_length_le (by omega)
      simp only [if_neg h16]
      rw [e3, hn _ l3]
      exact ⟨rfl, rfl⟩
  by_cases hm : mode = CBC ∧ iv = []
  · have hm' : mode = CBC ∧ optChars (some (Data.bytes iv)) = [] := hm
    rw [if_pos hm', if_pos hm]
    have l1 : (key.take 8).length = 8 := by rw [List.length_take]; omega
    obtain ⟨m1, m2⟩ := main (key.take 8) (.inr l1)
    simp only [Data.slice, List.drop_zero, Nat.sub_zero]
    rw [if_neg (by simp only [optChars, Data.chars]; omega), if_neg (by omega), m1, m2]
    exact .inr ⟨_, _, _, _, rfl, rfl, rfl, rfl⟩
  · have hm' : ¬ (mode = CBC ∧ optChars (some (Data.bytes iv)) = []) := hm
    rw [if_neg hm', if_neg hm]
    have hv : iv = [] ∨ iv.length = 8 := by
      by_cases h : iv = []
      · exact .inl h
      · exact .inr (Decidable.byContradiction fun h' => h2 ⟨h, h'⟩)
    have hc : ¬ (mode = CBC ∧ iv.length ≠ 8) := by
      rintro ⟨x, y⟩
      rcases hv with h | h
      · exact hm ⟨x, h⟩
      · exact y h
    obtain ⟨m1, m2⟩ := main iv hv
    have hc' : ¬ (mode = CBC ∧ (optChars (some (Data.bytes iv))).length ≠ 8) := hc
    simp only
    rw [if_neg hc', if_neg hc, m1, m2]
    exact .inr ⟨_, _, _, _, rfl, rfl, rfl, rfl⟩

end DP

open DP in
/-- **C113** (pads of several bytes, triple DES). With bytes for arguments and a padding mode that is not None, a `triple_des` object is that of C101, for pads of any length: it is
refused when that is, and encrypts and decrypts alike. -/
theorem C113_triple_pads (py3 : Bool) (key : List Nat) (mode : Nat) (iv pad : List Nat) (padmode : Nat) :
    (FObj.new py3 true (.bytes key) mode (some (.bytes iv)) (some (.bytes pad)) (some padmode) = .error .valueError ∧
      MTriple.new key mode iv pad padmode = .error .valueError) ∨
    ∃ o d, FObj.new py3 true (.bytes key) mode (some (.bytes iv)) (some (.bytes pad)) (some padmode) = .ok o ∧ MTriple.new key mode iv pad padmode = .ok d ∧
      ∀ (before : List CallF), (∀ c ∈ before, CallF.sets c = false) → ∀ (m p : List Nat) (pm : Option Nat),
        retBytes ((o.run py3 before).call py3 (.encrypt (.bytes m) (some (.bytes p)) pm)).1 = (d.encrypt py3 m p pm).map (fun r => Ret.data (some (.bytes r.1))) ∧
        retBytes ((o.run py3 before).call py3 (.decrypt (.bytes m) (some (.bytes p)) pm)).1 = (d.decrypt py3 m p pm).map (fun r => Ret.data (some (.bytes r.1))) := by
  rcases ft_new py3 key mode iv pad padmode with ⟨e1, e2⟩ | ⟨t, a, b, c, e1, e2, hp, hq⟩
  · refine .inl ⟨?_, e2⟩
    unfold FObj.new; rw [if_pos rfl, e1]; rfl
  have hnew : FObj.new py3 true (.bytes key) mode (some (.bytes iv)) (some (.bytes pad)) (some padmode) = .ok (.triple (ft t key a b c)) := by
    unfold FObj.new; rw [if_pos rfl, e2]; rfl
  refine .inr ⟨_, t, hnew, e1, ?_⟩
  have hret : ∀ (x : Data) (r : List Nat), x.chars = r → retBytes (dataRet (.ok x)) = .ok (.data (some (.bytes r))) := by
    intro x r hx; show Except.ok (Ret.data (some (asBytes x))) = _; unfold asBytes; rw [hx]
  intro before hbefore m p pm
  have hone : ∀ f, (((FObj.triple (ft t key a b c)).run py3 before).call py3 f).1 = ((FObj.triple (ft t key a b c)).call py3 f).1 := by
    intro f
    have := C113_erase py3 true _ _ _ _ _ _ hnew before [f]
    rw [show before.filter CallF.sets = [] from List.filter_eq_nil_iff.mpr fun x hx => by simp [hbefore x hx]] at this
    simpa [FObj.trace, FObj.run] using this
  rw [hone, hone]
  have hpm : ∀ q : Nat, ((pm <|> some t.padmode) = some q) = (pm.getD t.padmode = q) := by intro q; cases pm <;> simp
  constructor
  · show retBytes (dataRet (FTriple.encrypt py3 (ft t key a b c) (.bytes m) (some (.bytes p)) pm).1) = _
    unfold FTriple.encrypt MTriple.encrypt
    simp only [Data.guard, guardSome]
    have hpad : FBase.padData (ft t key a b c).base m (some (.bytes p)) pm = padDataM t.padding t.padmode m p pm := by
      unfold FBase.padData padDataM ft
      simp only [optChars, Data.chars, hpm]
      by_cases hp : p = [] <;> simp [hp]
    rw [hpad]
    cases padDataM t.padding t.padmode m p pm with
    | error e => rfl
    | ok x =>
      simp only [bind, Except.bind]
      by_cases hm : t.mode = CBC
      · rw [if_pos (show (ft t key a b c).base.mode = CBC from hm), if_pos hm]
        rcases ft_setIVs py3 t key a b c t.iv with ⟨t', f1, f2, _⟩ | ⟨e, o, f1, f2⟩
        · rw [show (ft t key a b c).base.iv = some (.bytes t.iv) from rfl, f2, f1]
          simp only
          rcases ft_encLoop py3 key a b c (blocks x) t' with ⟨r, t'', g1, g2⟩ | ⟨e, o, g1, g2⟩
          · rw [g1, g2]; exact hret _ _ rfl
          · rw [g1, g2]; rfl
        · rw [show (ft t key a b c).base.iv = some (.bytes t.iv) from rfl, f2, f1]; rfl
      · rw [if_neg (show ¬ (ft t key a b c).base.mode = CBC from hm), if_neg hm]
        have h3 := ft_crypt3 py3 t.key1 t.key2 t.key3 a b c x true
        rw [show (if true = true then 0 else 1) = 0 from rfl] at h3
        rw [show crypt3 py3 (ft t key a b c).key1 (ft t key a b c).key2 (ft t key a b c).key3 0 x = _ from h3]
        cases t.key1.crypt py3 x true with
        | error e => rfl
        | ok y =>
          simp only [bind, Except.bind, Bool.not_true]
          cases t.key2.crypt py3 y false with
          | error e => rfl
          | ok z =>
            simp only
            cases t.key3.crypt py3 z true with
            | error e => rfl
            | ok r => exact hret _ _ (resultT_chars _ _)
  · show retBytes (dataRet (FTriple.decrypt py3 (ft t key a b c) (.bytes m) (some (.bytes p)) pm).1) = _
    unfold FTriple.decrypt MTriple.decrypt
    simp only [Data.guard, guardSome]
    have hun : ∀ (empty : Data) (r : List Nat), empty.chars = [] →
        retBytes (dataRet (unpadF (ft t key a b c).base empty r (some (.bytes p)) pm)) = (unpadDataM t.padding t.padmode r p pm).map (fun x => Ret.data (some (.bytes x))) := by
      intro empty r he
      unfold unpadF
      by_cases hr : r = []
      · rw [if_pos hr, hr]; exact hret _ _ he
      · rw [if_neg hr]
        have hun : FBase.unpadData (ft t key a b c).base r (some (.bytes p)) pm = unpadDataM t.padding t.padmode r p pm := by
          unfold FBase.unpadData unpadDataM ft
          obtain ⟨l, hl⟩ : ∃ l, r.getLast? = some l := by
            cases r with
            | nil => exact (hr rfl).elim
            | cons x xs => exact ⟨_, List.getLast?_eq_some_getLast (by simp)⟩
          rw [hl]
          simp only [optChars, Data.chars, hpm, Option.getD_some]
          by_cases hp : p = [] <;> simp [hp]
        rw [hun]
        cases unpadDataM t.padding t.padmode r p pm with
        | error e => rfl
        | ok x => exact hret _ _ rfl
    by_cases hm : t.mode = CBC
    · rw [if_pos (show (ft t key a b c).base.mode = CBC from hm), if_pos hm]
      rcases ft_setIVs py3 t key a b c t.iv with ⟨t', f1, f2, p1, q1⟩ | ⟨e, o, f1, f2⟩
      · rw [show (ft t key a b c).base.iv = some (.bytes t.iv) from rfl, f2, f1]
        simp only [bind, Except.bind]
        rcases ft_decLoop py3 key a b c (blocks m) t' with ⟨r, t'', g1, g2, p2, q2⟩ | ⟨e, o, g1, g2⟩
        · rw [g1, g2]
          simp only
          have hb : unpadF (ft t'' key a b c).base (.bytes []) r (some (.bytes p)) pm = unpadF (ft t key a b c).base (.bytes []) r (some (.bytes p)) pm := by
            unfold unpadF FBase.unpadData ft
            simp only [p2, p1, q2, q1]
          rw [hb, hun _ _ rfl, p2, p1, q2, q1]
          cases unpadDataM t.padding t.padmode r p pm <;> rfl
        · rw [g1, g2]; rfl
      · rw [show (ft t key a b c).base.iv = some (.bytes t.iv) from rfl, f2, f1]; rfl
    · rw [if_neg (show ¬ (ft t key a b c).base.mode = CBC from hm), if_neg hm]
      have h3 := ft_crypt3 py3 t.key3 t.key2 t.key1 c b a m false
      rw [show (if false = true then 0 else 1) = 1 from rfl] at h3
      rw [show crypt3 py3 (ft t key a b c).key3 (ft t key a b c).key2 (ft t key a b c).key1 1 m = _ from h3]
      cases t.key3.crypt py3 m false with
      | error e => rfl
      | ok y =>
        simp only [bind, Except.bind, Bool.not_false]
        cases t.key2.crypt py3 y true with
        | error e => rfl
        | ok z =>
          simp only
          cases t.key1.crypt py3 z false with
          | error e => rfl
          | ok r =>
            simp only
            rw [hun _ _ (resultT_chars _ _)]
            cases unpadDataM t.padding t.padmode r p pm <;> rfl

/-- A triple DES object with a pad of three bytes, in CBC mode, after a call that was refused: seven bytes cannot be encrypted with the
pad of the object, which makes them ten, but with a pad of one byte they can, and the model of C101 agrees. -/
example : ∃ o d, FObj.new true true (.bytes (List.range 16)) 1 (some (.bytes (List.range 8))) (some (.bytes [1, 2, 3])) (some 1) = .ok o ∧
    MTriple.new (List.range 16) 1 (List.range 8) [1, 2, 3] 1 = .ok d ∧
    CallF.sets (.decrypt (.bytes [1]) none none) = false ∧
    (((o.run true [.decrypt (.bytes [1]) none none]).call true (.encrypt (.bytes [1, 2, 3, 4, 5, 6, 7]) (some (.bytes [])) none)).1).toOption.isSome = false ∧
    (((o.run true [.decrypt (.bytes [1]) none none]).call true (.encrypt (.bytes [1, 2, 3, 4, 5, 6, 7]) (some (.bytes [9])) none)).1).toOption.isSome = true ∧
    (d.encrypt true [1, 2, 3, 4, 5, 6, 7] [9] none).toOption.isSome = true := by
  refine ⟨_, _, rfl, rfl, rfl, ?_, ?_, ?_⟩ <;> decide +kernel

end Verif.Props
