import Verif.Model.Imports

/-!
Two facts about the import machinery in general, for any table of statements: a run touches only the modules its statements can reach (frame),
and more nesting allowed changes nothing for a run that did not hit the limit.
-/
namespace Verif.Model.Imports

theorem get_remove (s : Sys) (m q : M) : get (remove s m) q = if q = m then none else get s q := by
  induction s with
  | nil => simp [remove, get]
  | cons h t ih =>
    obtain ⟨k, c⟩ := h
    unfold remove
    by_cases hk : k = m
    · rw [if_pos hk, ih]
      by_cases hq : q = m
      · rw [if_pos hq, if_pos hq]
      · rw [if_neg hq, if_neg hq]
        have : k ≠ q := fun e => hq (e ▸ hk)
        simp [get, this]
    · rw [if_neg hk]
      by_cases hkq : k = q
      · subst hkq
        rw [if_neg hk]; simp [get]
      · simp only [get, if_neg hkq]
        exact ih

theorem get_put (s : Sys) (m q : M) (c : Cell) : get (put s m c) q = if q = m then some c else get s q := by
  unfold put
  by_cases h : q = m
  · subst h; simp [get]
  · have : m ≠ q := fun e => h e.symm
    simp only [get, if_neg this, if_neg h]
    rw [get_remove, if_neg h]

theorem get_del (s : Sys) (m q : M) : get (del s m) q =
    if q = m then none else (get s q).map fun c => if parent q = some m then { c with bound := false } else c := by
  induction s with
  | nil => simp [del, get]
  | cons h t ih =>
    obtain ⟨k, c⟩ := h
    unfold del
    by_cases hk : k = m
    · rw [if_pos hk, ih]
      by_cases hq : q = m
      · rw [if_pos hq, if_pos hq]
      · rw [if_neg hq, if_neg hq]
        have : k ≠ q := fun e => hq (e ▸ hk)
        simp [get, this]
    · rw [if_neg hk]
      by_cases hkq : k = q
      · subst hkq
        rw [if_neg hk]
        by_cases hp : parent k = some m
        · simp [get, hp]
        · simp [get, hp]
      · by_cases hp : parent k = some m
        · rw [if_pos hp]; simp only [get, if_neg hkq]; exact ih
        · rw [if_neg hp]; simp only [get, if_neg hkq]; exact ih

/-! ### Frame -/

/-- The two tables have the same entries for the modules in `R`. -/
def Agree (R : M → Prop) (s t : Sys) : Prop := ∀ q, R q → get s q = get t q

theorem Agree.refl (R : M → Prop) (s : Sys) : Agree R s s := fun _ _ => rfl

/-- The same outcome as far as `R` is concerned. -/
def Same (R : M → Prop) (r r' : Res) : Prop := r.res = r'.res ∧ r.log = r'.log ∧ Agree R r.sys r'.sys

/-- Entries outside `R` stay as they are, unless their package was dropped. -/
def Keep (R : M → Prop) (s : Sys) (r : Res) : Prop :=
  ∀ q, ¬ R q → (∀ p, parent q = some p → Ev.drop p ∉ r.log) → get r.sys q = get s q

/-- An action that reads and writes only `R`. -/
def Fr (R : M → Prop) (f : Sys → Res) : Prop := ∀ s t, Agree R s t → Same R (f s) (f t) ∧ Keep R s (f s)

theorem Fr.andThen {R : M → Prop} {f g : Sys → Res} (hf : Fr R f) (hg : Fr R g) : Fr R fun s => (f s).andThen g := by
  intro s t h
  obtain ⟨⟨h1, h2, h3⟩, h4⟩ := hf s t h
  cases hr : (f s).res with
  | error e =>
    have hr' : (f t).res = .error e := h1 ▸ hr
    refine ⟨?_, ?_⟩
    · simp only [Res.andThen, hr, hr']; exact ⟨h1, h2, h3⟩
    · simp only [Res.andThen, hr]; exact h4
  | ok u =>
    have hr' : (f t).res = .ok u := h1 ▸ hr
    obtain ⟨⟨k1, k2, k3⟩, k4⟩ := hg _ _ h3
    refine ⟨?_, ?_⟩
    · simp only [Res.andThen, hr, hr']
      exact ⟨k1, by simp only [h2, k2], k3⟩
    · simp only [Res.andThen, hr]
      intro q hq hd
      have hd1 : ∀ p, parent q = some p → Ev.drop p ∉ (f s).log := fun p hp hm => hd p hp (List.mem_append.mpr (.inl hm))
      have hd2 : ∀ p, parent q = some p → Ev.drop p ∉ (g (f s).sys).log := fun p hp hm => hd p hp (List.mem_append.mpr (.inr hm))
      rw [k4 q hq hd2, h4 q hq hd1]

/-- An action without events that only changes one entry of `R`. -/
theorem Fr.quiet {R : M → Prop} {f : Sys → Res} (hs : ∀ s t, Agree R s t → (f s).res = (f t).res ∧ Agree R (f s).sys (f t).sys)
    (hl : ∀ s, (f s).log = []) (hk : ∀ s q, ¬ R q → get (f s).sys q = get s q) : Fr R f := by
  intro s t h
  obtain ⟨h1, h2⟩ := hs s t h
  exact ⟨⟨h1, by rw [hl, hl], h2⟩, fun q hq _ => hk s q hq⟩

theorem Fr.ext {R : M → Prop} {f g : Sys → Res} (h : ∀ s, f s = g s) (hg : Fr R g) : Fr R f := by
  have : f = g := funext h
  rw [this]; exact hg

theorem Fr.idle {R : M → Prop} : Fr R fun s => ⟨.ok (), s, []⟩ :=
  Fr.quiet (fun _ _ h => ⟨rfl, h⟩) (fun _ => rfl) (fun _ _ _ => rfl)

theorem getattr_agree {R : M → Prop} {s t : Sys} {p : M} {x : Id} (h : Agree R s t) (hp : R p)
    (hc : ∀ q, child p x = some q → R q) : getattr s p x = getattr t p x := by
  unfold getattr
  rw [h p hp]
  cases hg : get t p with
  | none => rfl
  | some c =>
    simp only
    cases hl : c.ns.lookup x with
    | some v => rfl
    | none =>
      simp only
      cases hq : child p x with
      | none => rfl
      | some q => simp only; rw [h q (hc q hq)]

theorem importFrom_agree {R : M → Prop} {s t : Sys} {p : M} {x : Id} (cfg : Cfg) (h : Agree R s t) (hp : R p)
    (hc : ∀ q, child p x = some q → R q) : importFrom cfg s p x = importFrom cfg t p x := by
  unfold importFrom
  rw [getattr_agree h hp hc]
  cases hg : getattr t p x with
  | some v => rfl
  | none =>
    simp only
    cases hq : child p x with
    | none => rfl
    | some q => simp only; rw [h q (hc q hq)]

theorem get_bindName (s : Sys) (m q : M) (x : Id) (v : Val) : get (bindName s m x v) q =
    if q = m then (get s m).map (fun c => { c with ns := (x, v) :: c.ns }) else get s q := by
  unfold bindName
  cases hg : get s m with
  | none =>
    by_cases h : q = m
    · subst h; simp [hg]
    · simp [h]
  | some c =>
    simp only [get_put]
    by_cases h : q = m <;> simp [h]

theorem bindName_agree {R : M → Prop} {s t : Sys} (m : M) (x : Id) (v : Val) (h : Agree R s t) (hm : R m) :
    Agree R (bindName s m x v) (bindName t m x v) := by
  intro q hq
  rw [get_bindName, get_bindName, h m hm, h q hq]

theorem bindName_keep {R : M → Prop} (s : Sys) (m : M) (x : Id) (v : Val) (hm : R m) (q : M) (hq : ¬ R q) :
    get (bindName s m x v) q = get s q := by
  rw [get_bindName, if_neg]
  rintro rfl; exact hq hm

theorem put_agree {R : M → Prop} {s t : Sys} (m : M) (c : Cell) (h : Agree R s t) : Agree R (put s m c) (put t m c) := by
  intro q hq
  rw [get_put, get_put, h q hq]

/-- The modules a statement of the body of `m` may read. -/
def reads (m : M) : Stmt → List M
  | .imp q => [q]
  | .ext _ => []
  | .from_ p xs => p :: xs.filterMap (fun x => child p x.1)
  | .defn _ us => us.filterMap (child m)
  | .alias _ b q a => q :: ((child m b).toList ++ (child q a).toList)
  | .copy _ y => (child m y).toList
  | .tryFrom p x => p :: (child p x).toList
  | .tryCrypto _ => []

theorem Fr.fromList {R : M → Prop} (cfg : Cfg) {ld : M → Sys → Res} (hld : ∀ q, R q → Fr R (ld q)) (p : M) (hp : R p) :
    ∀ xs : List Id, (∀ x ∈ xs, ∀ q, child p x = some q → R q) → Fr R (Imports.fromList cfg ld p xs)
  | [], _ => Fr.ext (fun _ => by rw [Imports.fromList]) Fr.idle
  | x :: xs, hx => by
    refine Fr.ext (fun s => by rw [Imports.fromList]) (Fr.andThen ?_ ?_)
    rotate_left
    · exact Fr.fromList cfg hld p hp xs fun y hy => hx y (List.mem_cons_of_mem _ hy)
    have hcx := hx x List.mem_cons_self
    intro s t h
    simp only []
    rw [getattr_agree h hp hcx]
    cases hg : getattr t p x with
    | some v => exact ⟨⟨rfl, rfl, h⟩, fun _ _ _ => rfl⟩
    | none =>
      simp only
      cases hq : child p x with
      | none => exact ⟨⟨rfl, rfl, h⟩, fun _ _ _ => rfl⟩
      | some q =>
        simp only
        by_cases hpr : present cfg q = true
        · simp only [hpr, if_true]; exact hld q (hcx q hq) s t h
        · simp only [hpr]; exact ⟨⟨rfl, rfl, h⟩, fun _ _ _ => rfl⟩

theorem bindFrom_log (cfg : Cfg) (m p : M) : ∀ (xs : List (Id × Id)) (s : Sys), (bindFrom cfg m p xs s).log = []
  | [], _ => rfl
  | (x, y) :: xs, s => by
    unfold bindFrom
    cases importFrom cfg s p x with
    | error e => rfl
    | ok v => exact bindFrom_log cfg m p xs _

theorem Fr.bindFrom {R : M → Prop} (cfg : Cfg) (m p : M) (hm : R m) (hp : R p) :
    ∀ xs : List (Id × Id), (∀ x ∈ xs, ∀ q, child p x.1 = some q → R q) → Fr R (Imports.bindFrom cfg m p xs)
  | [], _ => Fr.ext (fun _ => by rw [Imports.bindFrom]) Fr.idle
  | (x, y) :: xs, hx => by
    intro s t h
    unfold Imports.bindFrom
    rw [importFrom_agree cfg h hp (hx (x, y) List.mem_cons_self)]
    cases importFrom cfg t p x with
    | error e => exact ⟨⟨rfl, rfl, h⟩, fun _ _ _ => rfl⟩
    | ok v =>
      have ih := Fr.bindFrom cfg m p hm hp xs fun z hz => hx z (List.mem_cons_of_mem _ hz)
      obtain ⟨a, b⟩ := ih _ _ (bindName_agree m y v h hm)
      refine ⟨a, ?_⟩
      intro q hq hd
      have := b q hq hd
      rw [this]
      exact bindName_keep s m y v hm q hq

theorem Fr.exec {R : M → Prop} (cfg : Cfg) {ld : M → Sys → Res} (hld : ∀ q, R q → Fr R (ld q)) (m : M) (hm : R m) (st : Stmt)
    (hst : ∀ q ∈ reads m st, R q) : Fr R (Imports.exec cfg ld m st) := by
  cases st with
  | imp q =>
    unfold Imports.exec
    refine Fr.andThen (hld q (hst q (by simp [reads]))) ?_
    exact Fr.quiet (fun s t h => ⟨rfl, bindName_agree m _ _ h hm⟩) (fun _ => rfl) (fun s q hq => bindName_keep s m _ _ hm q hq)
  | ext x =>
    unfold Imports.exec
    exact Fr.quiet (fun s t h => ⟨rfl, bindName_agree m _ _ h hm⟩) (fun _ => rfl) (fun s q hq => bindName_keep s m _ _ hm q hq)
  | from_ p xs =>
    have hp : R p := hst p (by simp [reads])
    have hc : ∀ x ∈ xs, ∀ q, child p x.1 = some q → R q := fun x hx q hq =>
      hst q (List.mem_cons_of_mem _ (List.mem_filterMap.mpr ⟨x, hx, hq⟩))
    unfold Imports.exec
    refine Fr.andThen (hld p hp) (Fr.andThen (Fr.fromList cfg hld p hp _ ?_) (Fr.bindFrom cfg m p hm hp xs hc))
    intro x hx q hq
    obtain ⟨z, hz, rfl⟩ := List.mem_map.mp hx
    exact hc z hz q hq
  | defn x us =>
    intro s t h
    have hb : allBound s m us = allBound t m us := by
      have : ∀ l : List Id, (∀ y ∈ l, y ∈ us) → allBound s m l = allBound t m l := by
        intro l hl
        induction l with
        | nil => rfl
        | cons y ys ih =>
          have hy := getattr_agree (x := y) h hm fun q hq => hst q (List.mem_filterMap.mpr ⟨y, hl y List.mem_cons_self, hq⟩)
          have := ih fun z hz => hl z (List.mem_cons_of_mem _ hz)
          simp only [allBound, List.all_cons] at this ⊢
          rw [hy, this]
      exact this us fun _ hy => hy
    simp only [Imports.exec, hb]
    by_cases hc : allBound t m us = true
    · simp only [hc, if_true]
      exact ⟨⟨rfl, rfl, bindName_agree m _ _ h hm⟩, fun q hq _ => bindName_keep s m _ _ hm q hq⟩
    · simp only [hc]
      exact ⟨⟨rfl, rfl, h⟩, fun _ _ _ => rfl⟩
  | alias x b q a =>
    intro s t h
    have hq : R q := hst q (by simp [reads])
    have h1 := getattr_agree (x := b) h hm fun r hr => hst r (by simp [reads, hr])
    have h2 := getattr_agree (x := a) h hq fun r hr => hst r (by simp [reads, hr])
    simp only [Imports.exec, h1, h2]
    cases getattr t m b with
    | none => exact ⟨⟨rfl, rfl, h⟩, fun _ _ _ => rfl⟩
    | some v =>
      simp only
      by_cases hv : v = .mod q
      · simp only [hv, if_true]
        cases getattr t q a with
        | none => exact ⟨⟨rfl, rfl, h⟩, fun _ _ _ => rfl⟩
        | some w => exact ⟨⟨rfl, rfl, bindName_agree m _ _ h hm⟩, fun q hq _ => bindName_keep s m _ _ hm q hq⟩
      · simp only [hv, if_false]
        exact ⟨⟨rfl, rfl, h⟩, fun _ _ _ => rfl⟩
  | copy x y =>
    intro s t h
    have h1 := getattr_agree (x := y) h hm fun r hr => hst r (by simp [reads, hr])
    simp only [Imports.exec, h1]
    cases getattr t m y with
    | none => exact ⟨⟨rfl, rfl, h⟩, fun _ _ _ => rfl⟩
    | some v => exact ⟨⟨rfl, rfl, bindName_agree m _ _ h hm⟩, fun q hq _ => bindName_keep s m _ _ hm q hq⟩
  | tryFrom p x =>
    have hp : R p := hst p (by simp [reads])
    have hc : ∀ q, child p x = some q → R q := fun q hq => hst q (by simp [reads, hq])
    have hf : Fr R fun s => (ld p s).andThen fun s1 => (Imports.fromList cfg ld p [x] s1).andThen fun s2 =>
        Imports.bindFrom cfg m p [(x, x)] s2 := by
      refine Fr.andThen (hld p hp) (Fr.andThen (Fr.fromList cfg hld p hp _ ?_) (Fr.bindFrom cfg m p hm hp _ ?_))
      · intro y hy; rw [List.mem_singleton.mp hy]; exact hc
      · intro y hy; rw [List.mem_singleton.mp hy]; exact hc
    intro s t h
    obtain ⟨⟨h1, h2, h3⟩, h4⟩ := hf s t h
    simp only [Imports.exec]
    dsimp only at h1 h2 h3 h4
    generalize ((ld p s).andThen fun s1 => (Imports.fromList cfg ld p [x] s1).andThen fun s2 =>
      Imports.bindFrom cfg m p [(x, x)] s2) = r at h1 h2 h3 h4 ⊢
    generalize ((ld p t).andThen fun s1 => (Imports.fromList cfg ld p [x] s1).andThen fun s2 =>
      Imports.bindFrom cfg m p [(x, x)] s2) = r' at h1 h2 h3 ⊢
    cases hr : r.res with
    | ok u =>
      have hr' : r'.res = .ok u := h1 ▸ hr
      simp only [hr']
      exact ⟨⟨h1, h2, h3⟩, h4⟩
    | error e =>
      have hr' : r'.res = .error e := h1 ▸ hr
      simp only [hr']
      by_cases he : e.isImportError = true
      · simp only [he, if_true]
        refine ⟨⟨rfl, h2, bindName_agree m _ _ h3 hm⟩, fun q hq hd => ?_⟩
        exact (bindName_keep r.sys m _ _ hm q hq).trans (h4 q hq hd)
      · simp only [he]
        exact ⟨⟨h1, h2, h3⟩, h4⟩
  | tryCrypto x =>
    unfold Imports.exec
    exact Fr.quiet (fun s t h => ⟨rfl, bindName_agree m _ _ h hm⟩) (fun _ => rfl) (fun s q hq => bindName_keep s m _ _ hm q hq)

theorem Fr.execAll {R : M → Prop} (cfg : Cfg) {ld : M → Sys → Res} (hld : ∀ q, R q → Fr R (ld q)) (m : M) (hm : R m) :
    ∀ sts : List Stmt, (∀ st ∈ sts, ∀ q ∈ reads m st, R q) → Fr R (Imports.execAll cfg ld m sts)
  | [], _ => Fr.ext (fun _ => by rw [Imports.execAll]) Fr.idle
  | st :: sts, h => by
    refine Fr.ext (fun s => by rw [Imports.execAll]) ?_
    exact Fr.andThen (Fr.exec cfg hld m hm st (h st List.mem_cons_self))
      (Fr.execAll cfg hld m hm sts fun x hx => h x (List.mem_cons_of_mem _ hx))

/-- `R` contains the packages of its modules and everything their statements read. -/
def Region (cfg : Cfg) (R : M → Prop) : Prop :=
  ∀ m, R m → (∀ p, parent m = some p → R p) ∧ ∀ st ∈ body cfg m, ∀ q ∈ reads m st, R q

theorem get_setBound (s : Sys) (m q : M) : get (setBound s m) q =
    if q = m ∧ (parent m).isSome then (get s m).map (fun c => { c with bound := true }) else get s q := by
  unfold setBound
  cases hp : parent m with
  | none => simp
  | some p =>
    simp only
    cases hg : get s m with
    | none =>
      by_cases h : q = m
      · subst h; simp [hg]
      · simp [h]
    | some c =>
      simp only [get_put]
      by_cases h : q = m <;> simp [h]

theorem Fr.runBody {R : M → Prop} (cfg : Cfg) (hR : Region cfg R) {ld : M → Sys → Res} (hld : ∀ q, R q → Fr R (ld q)) (m : M)
    (hm : R m) : Fr R (Imports.runBody cfg ld m) := by
  intro s t h
  unfold Imports.runBody
  by_cases hp : present cfg m = true
  · simp only [hp, if_true]
    have hx := Fr.execAll cfg hld m hm (body cfg m) (hR m hm).2
    obtain ⟨⟨h1, h2, h3⟩, h4⟩ := hx _ _ (put_agree m ⟨[], false⟩ h)
    have h5 : Keep R s (Imports.execAll cfg ld m (body cfg m) (put s m ⟨[], false⟩)) := by
      intro q hq hd
      rw [h4 q hq hd, get_put, if_neg]
      rintro rfl; exact hq hm
    generalize Imports.execAll cfg ld m (body cfg m) (put s m ⟨[], false⟩) = r at h1 h2 h3 h5 ⊢
    generalize Imports.execAll cfg ld m (body cfg m) (put t m ⟨[], false⟩) = r' at h1 h2 h3 ⊢
    cases hr : r.res with
    | error e =>
      have hr' : r'.res = .error e := h1 ▸ hr
      simp only [hr']
      refine ⟨⟨rfl, by simp only [h2], fun q hq => ?_⟩, fun q hq hd => ?_⟩
      · rw [get_del, get_del, h3 q hq]
      · have hqm : q ≠ m := by rintro rfl; exact hq hm
        have hpm : parent q ≠ some m := fun e' => hd m e' (by simp)
        rw [get_del, if_neg hqm]
        have := h5 q hq fun p hpp hmem => hd p hpp (by simp [hmem])
        rw [this]
        cases get s q <;> simp [hpm]
    | ok u =>
      have hr' : r'.res = .ok u := h1 ▸ hr
      simp only [hr']
      refine ⟨⟨rfl, by simp only [h2], fun q hq => ?_⟩, fun q hq hd => ?_⟩
      · rw [get_setBound, get_setBound, h3 q hq, h3 m hm]
      · have hqm : ¬ (q = m ∧ (parent m).isSome) := by rintro ⟨rfl, _⟩; exact hq hm
        rw [get_setBound, if_neg hqm]
        exact h5 q hq fun p hpp hmem => hd p hpp (by simp [hmem])
  · simp only [hp]
    exact ⟨⟨rfl, rfl, h⟩, fun _ _ _ => rfl⟩

theorem Fr.load {R : M → Prop} (cfg : Cfg) (hR : Region cfg R) : ∀ (n : Nat) (m : M), R m → Fr R (Imports.load cfg n m)
  | 0, _, _ => Fr.ext (fun _ => by rw [Imports.load])
      (Fr.quiet (f := fun s => ⟨.error .recursion, s, []⟩) (fun _ _ h => ⟨rfl, h⟩) (fun _ => rfl) (fun _ _ _ => rfl))
  | n + 1, m, hm => by
    have hrun : Fr R fun s1 => if (get s1 m).isSome then ⟨.ok (), s1, []⟩ else Imports.runBody cfg (Imports.load cfg n) m s1 := by
      intro s t h
      simp only [h m hm]
      by_cases hg : (get t m).isSome = true
      · simp only [hg, if_true]; exact ⟨⟨rfl, rfl, h⟩, fun _ _ _ => rfl⟩
      · simp only [hg]
        exact Fr.runBody cfg hR (fun q hq => Fr.load cfg hR n q hq) m hm s t h
    have hall : Fr R fun s => Res.andThen (match parent m with
        | none => ⟨.ok (), s, []⟩
        | some p => Imports.load cfg n p s) fun s1 =>
          if (get s1 m).isSome then ⟨.ok (), s1, []⟩ else Imports.runBody cfg (Imports.load cfg n) m s1 := by
      refine Fr.andThen ?_ hrun
      cases hp : parent m with
      | none => exact Fr.quiet (fun s t h => ⟨rfl, h⟩) (fun _ => rfl) (fun _ _ _ => rfl)
      | some p => exact Fr.load cfg hR n p ((hR m hm).1 p hp)
    intro s t h
    unfold Imports.load
    simp only [h m hm]
    by_cases hg : (get t m).isSome = true
    · simp only [hg, if_true]; exact ⟨⟨rfl, rfl, h⟩, fun _ _ _ => rfl⟩
    · simp only [hg]
      exact hall s t h

/-! ### More nesting allowed -/

/-- Either the first run hit the limit, or both are the same. -/
def Le (r r' : Res) : Prop := r.res = .error .recursion ∨ r = r'

theorem Le.andThen {r r' : Res} {f g : Sys → Res} (h : Le r r') (hf : ∀ s, Le (f s) (g s)) : Le (r.andThen f) (r'.andThen g) := by
  rcases h with h | rfl
  · left; simp only [Res.andThen, h]
  · cases hr : r.res with
    | error e => right; simp only [Res.andThen, hr]
    | ok u =>
      rcases hf r.sys with h | h
      · left; simp only [Res.andThen, hr, h]
      · right; simp only [Res.andThen, hr, h]

theorem Le.fromList (cfg : Cfg) {ld ld' : M → Sys → Res} (h : ∀ q s, Le (ld q s) (ld' q s)) (p : M) :
    ∀ (xs : List Id) (s : Sys), Le (Imports.fromList cfg ld p xs s) (Imports.fromList cfg ld' p xs s)
  | [], _ => .inr rfl
  | x :: xs, s => by
    unfold Imports.fromList
    refine Le.andThen ?_ (Le.fromList cfg h p xs)
    cases getattr s p x with
    | some v => exact .inr rfl
    | none =>
      simp only
      cases child p x with
      | none => exact .inr rfl
      | some q =>
        simp only
        split
        · exact h q s
        · exact .inr rfl

theorem Le.exec (cfg : Cfg) {ld ld' : M → Sys → Res} (h : ∀ q s, Le (ld q s) (ld' q s)) (m : M) (st : Stmt) (s : Sys) :
    Le (Imports.exec cfg ld m st s) (Imports.exec cfg ld' m st s) := by
  cases st with
  | imp q => exact Le.andThen (h q s) fun _ => .inr rfl
  | from_ p xs => exact Le.andThen (h p s) fun s1 => Le.andThen (Le.fromList cfg h p _ s1) fun _ => .inr rfl
  | tryFrom p x =>
    have hr : Le ((ld p s).andThen fun s1 => (Imports.fromList cfg ld p [x] s1).andThen fun s2 => bindFrom cfg m p [(x, x)] s2)
        ((ld' p s).andThen fun s1 => (Imports.fromList cfg ld' p [x] s1).andThen fun s2 => bindFrom cfg m p [(x, x)] s2) :=
      Le.andThen (h p s) fun s1 => Le.andThen (Le.fromList cfg h p _ s1) fun _ => .inr rfl
    rcases hr with hr | hr
    · left
      simp only [Imports.exec, hr, E.isImportError]
      exact hr
    · right
      simp only [Imports.exec, hr]
  | _ => exact .inr rfl

theorem Le.execAll (cfg : Cfg) {ld ld' : M → Sys → Res} (h : ∀ q s, Le (ld q s) (ld' q s)) (m : M) :
    ∀ (sts : List Stmt) (s : Sys), Le (Imports.execAll cfg ld m sts s) (Imports.execAll cfg ld' m sts s)
  | [], _ => .inr rfl
  | st :: sts, s => by
    unfold Imports.execAll
    exact Le.andThen (Le.exec cfg h m st s) (Le.execAll cfg h m sts)

theorem Le.runBody (cfg : Cfg) {ld ld' : M → Sys → Res} (h : ∀ q s, Le (ld q s) (ld' q s)) (m : M) (s : Sys) :
    Le (Imports.runBody cfg ld m s) (Imports.runBody cfg ld' m s) := by
  unfold Imports.runBody
  by_cases hp : present cfg m = true
  · simp only [hp, if_true]
    rcases Le.execAll cfg h m (body cfg m) (put s m ⟨[], false⟩) with hx | hx
    · left; simp only [hx]
    · right; simp only [hx]
  · simp only [hp]; exact .inr rfl

theorem Le.load_succ (cfg : Cfg) : ∀ (n : Nat) (m : M) (s : Sys), Le (Imports.load cfg n m s) (Imports.load cfg (n + 1) m s)
  | 0, _, _ => .inl rfl
  | n + 1, m, s => by
    rw [Imports.load, Imports.load]
    by_cases hg : (get s m).isSome = true
    · simp only [hg, if_true]; exact .inr rfl
    · rw [if_neg hg, if_neg hg]
      refine Le.andThen ?_ ?_
      · cases parent m with
        | none => exact .inr rfl
        | some p => exact Le.load_succ cfg n p s
      · intro s1
        by_cases hg1 : (get s1 m).isSome = true
        · simp only [hg1, if_true]; exact .inr rfl
        · rw [if_neg hg1, if_neg hg1]
          exact Le.runBody cfg (Le.load_succ cfg n) m s1

/-- A run that did not hit the limit is the same with any larger limit. -/
theorem load_more (cfg : Cfg) (n k : Nat) (m : M) (s : Sys) (h : (load cfg n m s).res ≠ .error .recursion) :
    load cfg (n + k) m s = load cfg n m s := by
  induction k with
  | zero => rfl
  | succ k ih =>
    rcases Le.load_succ cfg (n + k) m s with hx | hx
    · rw [ih] at hx; exact absurd hx h
    · rw [← Nat.add_assoc, ← hx, ih]

end Verif.Model.Imports
