import Verif.Lemmas.ImportsTable

namespace Verif.Model.Imports

theorem M.mem_all (q : M) : q ∈ M.all := by cases q <;> decide

/-- Inclusion of bit masks. -/
def sub (a b : Nat) : Bool := decide (a ||| b = b)

theorem mem_or (a b : Nat) (q : M) : mem (a ||| b) q = (mem a q || mem b q) := by
  unfold mem; exact Nat.testBit_or ..

theorem mem_of_sub {a b : Nat} (h : sub a b = true) {q : M} (hq : mem a q = true) : mem b q = true := by
  have := of_decide_eq_true h
  rw [← this, mem_or, hq]; rfl

/-- The number of packages around a module. -/
def rank : M → Nat := fun m => match parent m with
  | none => 0
  | some p => match parent p with
    | none => 1
    | some q => match parent q with
      | none => 2
      | some _ => 3

theorem rank_parent : ∀ (m p : M), parent m = some p → rank m = rank p + 1 := by
  intro m p h
  cases m <;> simp only [parent, Option.some.injEq, reduceCtorEq] at h <;> subst h <;> rfl

theorem rank_le (m : M) : rank m ≤ 3 := by cases m <;> decide

/-- Facts about the tables. -/
def static1 (l : Layout) : Bool :=
  M.all.all fun m => mem (region m) m && M.all.all fun q =>
    (!mem (after l m) q || (mem (after l q) q && sub (after l q) (after l m))) &&
    (!mem (region m) q || sub (after l q) (region m))

theorem static1_all : ∀ l, static1 l = true := by intro l; cases l <;> decide +kernel

theorem mem_region_self (m : M) : mem (region m) m = true := by
  have := List.all_eq_true.1 (static1_all .package) m (M.mem_all m)
  exact (Bool.and_eq_true_iff.1 this).1

theorem after_closed (l : Layout) {m q : M} (h : mem (after l m) q = true) :
    mem (after l q) q = true ∧ sub (after l q) (after l m) = true := by
  have h1 := (Bool.and_eq_true_iff.1 (List.all_eq_true.1 (static1_all l) m (M.mem_all m))).2
  have h2 := (Bool.and_eq_true_iff.1 (List.all_eq_true.1 h1 q (M.mem_all q))).1
  rw [h] at h2
  exact Bool.and_eq_true_iff.1 h2

theorem region_after (l : Layout) {m q : M} (h : mem (region m) q = true) : sub (after l q) (region m) = true := by
  have h1 := (Bool.and_eq_true_iff.1 (List.all_eq_true.1 (static1_all l) m (M.mem_all m))).2
  have h2 := (Bool.and_eq_true_iff.1 (List.all_eq_true.1 h1 q (M.mem_all q))).2
  rw [h] at h2
  exact h2

/-- Facts about packages. -/
def static2 (l : Layout) : Bool :=
  M.all.all fun m => match parent m with
    | none => true
    | some p => mem (region m) p && (children p).any (fun c => decide (c.2 = m)) &&
      match res0 l p with
      | .error _ => decide (after l m = after l p) && sameRes (res0 l m) (res0 l p)
      | .ok _ => mem (after l p) p && sub (after l p) (after l m) &&
        (!mem (after l p) m || (decide (after l m = after l p) && sameRes (res0 l m) (.ok ())))

theorem static2_all : ∀ l, static2 l = true := by intro l; cases l <;> decide +kernel

theorem eq_of_sameRes {a b : Except E Unit} (h : sameRes a b = true) : a = b := by
  cases a <;> cases b <;> simp [sameRes] at h ⊢
  exact h

theorem parent_facts (l : Layout) {m p : M} (h : parent m = some p) :
    mem (region m) p = true ∧ (∃ x, (x, m) ∈ children p) ∧
    (∀ e, res0 l p = .error e → after l m = after l p ∧ res0 l m = .error e) ∧
    (res0 l p = .ok () → mem (after l p) p = true ∧ sub (after l p) (after l m) = true ∧
      (mem (after l p) m = true → after l m = after l p ∧ res0 l m = .ok ())) := by
  have h1 := List.all_eq_true.1 (static2_all l) m (M.mem_all m)
  rw [h] at h1
  simp only [Bool.and_eq_true] at h1
  obtain ⟨⟨h1, h2⟩, h3⟩ := h1
  refine ⟨h1, ?_, ?_, ?_⟩
  · rw [List.any_eq_true] at h2
    obtain ⟨⟨x, q⟩, hx, hq⟩ := h2
    have := of_decide_eq_true hq
    subst this
    exact ⟨x, hx⟩
  · intro e he
    rw [he] at h3
    simp only [Bool.and_eq_true, decide_eq_true_eq] at h3
    exact ⟨h3.1, eq_of_sameRes h3.2⟩
  · intro he
    rw [he] at h3
    simp only [Bool.and_eq_true, decide_eq_true_eq, Bool.or_eq_true, Bool.not_eq_true'] at h3
    refine ⟨h3.1.1, h3.1.2, fun hm => ?_⟩
    rcases h3.2 with h4 | h4
    · rw [hm] at h4; exact absurd h4 (by decide)
    · exact ⟨h4.1, eq_of_sameRes h4.2⟩

/-- The region of a module contains what its modules read. -/
def static3 (cfg : Cfg) : Bool :=
  M.all.all fun m => M.all.all fun q => !mem (region m) q ||
    ((match parent q with | none => true | some p => mem (region m) p) &&
      (body cfg q).all fun st => (reads q st).all fun r => mem (region m) r)

theorem static3_all : ∀ cfg, static3 cfg = true := by
  rintro ⟨l, b⟩
  cases l <;> cases b <;> decide +kernel

theorem region_ok (cfg : Cfg) (m : M) : Region cfg fun q => mem (region m) q = true := by
  intro q hq
  have h1 := List.all_eq_true.1 (List.all_eq_true.1 (static3_all cfg) m (M.mem_all m)) q (M.mem_all q)
  rw [hq] at h1
  simp only [Bool.not_true, Bool.false_or, Bool.and_eq_true] at h1
  refine ⟨fun p hp => ?_, fun st hst r hr => ?_⟩
  · have := h1.1; rw [hp] at this; exact this
  · exact List.all_eq_true.1 (List.all_eq_true.1 h1.2 st hst) r hr

theorem get_filterMap (l : Layout) (L : Nat) (q : M) : ∀ qs : List M,
    get (qs.filterMap fun q => if mem L q then some (q, cell0 l q) else none) q = if q ∈ qs then canon l L q else none
  | [] => rfl
  | a :: qs => by
    have ih := get_filterMap l L q qs
    rw [List.filterMap_cons]
    by_cases ha : mem L a = true
    · rw [if_pos ha]
      simp only [get]
      by_cases haq : a = q
      · subst haq; rw [if_pos rfl, if_pos List.mem_cons_self, canon, if_pos ha]
      · rw [if_neg haq, ih]
        simp only [List.mem_cons, Ne.symm haq, false_or]
    · rw [if_neg ha]
      simp only
      rw [ih]
      by_cases haq : a = q
      · subst haq
        rw [if_pos (show a ∈ a :: qs from List.mem_cons_self), canon, if_neg ha, ite_self]
      · simp only [List.mem_cons, Ne.symm haq, false_or]

theorem get_canonSys (l : Layout) (L : Nat) (q : M) : get (canonSys l L) q = canon l L q := by
  unfold canonSys; rw [get_filterMap, if_pos (M.mem_all q)]

/-- The sets of modules that can be in `sys.modules` between two statements. -/
def Closed (l : Layout) (L : Nat) : Prop := ∀ q, mem L q = true → mem (after l q) q = true ∧ ∀ r, mem (after l q) r = true → mem L r = true

theorem unions_complete {l : Layout} {L : Nat} (hL : Closed l L) : ∀ qs : List M,
    ∃ k ∈ unions l qs, ∀ x, mem k x = true ↔ ∃ q ∈ qs, mem L q = true ∧ mem (after l q) x = true
  | [] => ⟨0, by simp [unions], fun x => by simp [mem]⟩
  | a :: qs => by
    obtain ⟨k, hk, hx⟩ := unions_complete hL qs
    by_cases ha : mem L a = true
    · refine ⟨k ||| after l a, ?_, fun x => ?_⟩
      · simp only [unions]
        rw [if_pos (hL a ha).1, List.mem_eraseDups, List.mem_append]
        exact .inr (List.mem_map.2 ⟨k, hk, rfl⟩)
      · rw [mem_or, Bool.or_eq_true, hx]
        constructor
        · rintro (⟨q, hq, h⟩ | h)
          · exact ⟨q, List.mem_cons_of_mem _ hq, h⟩
          · exact ⟨a, List.mem_cons_self, ha, h⟩
        · rintro ⟨q, hq, h⟩
          rcases List.mem_cons.1 hq with rfl | hq
          · exact .inr h.2
          · exact .inl ⟨q, hq, h⟩
    · refine ⟨k, ?_, fun x => ?_⟩
      · simp only [unions]
        split
        · rw [List.mem_eraseDups, List.mem_append]; exact .inl hk
        · exact hk
      · rw [hx]
        constructor
        · rintro ⟨q, hq, h⟩; exact ⟨q, List.mem_cons_of_mem _ hq, h⟩
        · rintro ⟨q, hq, h⟩
          rcases List.mem_cons.1 hq with rfl | hq
          · exact absurd h.1 ha
          · exact ⟨q, hq, h⟩

/-- `sys.modules` between two statements. -/
structure Good (l : Layout) (L : Nat) (s : Sys) : Prop where
  closed : Closed l L
  entries : ∀ q, get s q = canon l L q

theorem Closed.or {l : Layout} {L : Nat} (h : Closed l L) (m : M) : Closed l (L ||| after l m) := by
  intro q hq
  rw [mem_or, Bool.or_eq_true] at hq
  rcases hq with hq | hq
  · exact ⟨(h q hq).1, fun r hr => by rw [mem_or, (h q hq).2 r hr]; rfl⟩
  · have := after_closed l hq
    exact ⟨this.1, fun r hr => by rw [mem_or, mem_of_sub this.2 hr, Bool.or_true]⟩

theorem canon_congr {l : Layout} {L K : Nat} {q : M} (h : mem L q = mem K q) : canon l L q = canon l K q := by
  unfold canon; rw [h]

/-- What is known of a load from a good state. -/
structure LoadOK (l : Layout) (m : M) (L : Nat) (r : Res) : Prop where
  res : r.res = if mem L m then .ok () else res0 l m
  good : Good l (if mem L m then L else L ||| after l m) r.sys
  nodup : l = .package → (starts r.log).Nodup
  fresh : l = .package → ∀ q ∈ starts r.log, mem L q = false ∧ mem (after l m) q = true
  nodrop : l = .package → ∀ p, Ev.drop p ∉ r.log

theorem LoadOK.idle {l : Layout} {m : M} {L : Nat} {s : Sys} (h : Good l L s) (hm : mem L m = true) : LoadOK l m L ⟨.ok (), s, []⟩ := by
  constructor
  · rw [if_pos hm]
  · rw [if_pos hm]; exact h
  · intro _; exact List.nodup_nil
  · intro _ q hq; exact absurd hq (by simp [starts])
  · intro _ p hp; exact absurd hp (by simp)

theorem mem_starts {q : M} : ∀ {log : List Ev}, q ∈ starts log → Ev.start q ∈ log
  | .start m :: t, h => by
    rcases List.mem_cons.1 (show q ∈ m :: starts t from h) with rfl | h
    · exact List.mem_cons_self
    · exact List.mem_cons_of_mem _ (mem_starts h)
  | .drop _ :: t, h => List.mem_cons_of_mem _ (mem_starts (log := t) h)

theorem starts_append : ∀ a b : List Ev, starts (a ++ b) = starts a ++ starts b
  | [], _ => rfl
  | .start m :: t, b => by simp [starts, starts_append t b]
  | .drop _ :: t, b => by simp [starts, starts_append t b]

theorem res0_ne (l : Layout) (m : M) : res0 l m ≠ .error .recursion := by
  unfold res0; cases l <;> simp only <;> (repeat' split) <;> simp

/-- A load when the package is there, from the runs checked. -/
theorem load_checked (cfg : Cfg) (hc : M.all.all (check cfg) = true) (m : M) {L : Nat} {s : Sys} (hG : Good cfg.pyDes L s)
    (hm : mem L m = false) (hp : ∀ p, parent m = some p → mem L p = true) (n : Nat) : LoadOK cfg.pyDes m L (load cfg (50 + n) m s) := by
  obtain ⟨k, hk, hx⟩ := unions_complete hG.closed (M.all.filter (mem (region m)))
  have hkx : ∀ x, mem (region m) x = true → mem k x = mem L x := by
    intro x hxr
    rw [Bool.eq_iff_iff, hx]
    constructor
    · rintro ⟨q, hq, h1, h2⟩
      exact (hG.closed q h1).2 x h2
    · intro h
      exact ⟨x, List.mem_filter.2 ⟨M.mem_all x, hxr⟩, h, (hG.closed x h).1⟩
  have hall := List.all_eq_true.1 (List.all_eq_true.1 hc m (M.mem_all m)) k hk
  unfold checkOne at hall
  rw [hkx m (mem_region_self m), hm] at hall
  have hpar : (match parent m with | some p => !mem k p | none => false) = false := by
    cases hpm : parent m with
    | none => rfl
    | some p => simp only; rw [hkx p (parent_facts cfg.pyDes hpm).1, hp p hpm]; rfl
  simp only [Bool.or_eq_true, Bool.false_eq_true, false_or] at hall
  rcases hall with hall | hall
  · exact absurd (hall.symm.trans hpar) (by decide)
  simp only [Bool.and_eq_true] at hall
  obtain ⟨⟨hres, hlog⟩, hsys⟩ := hall
  have hres' : (load cfg 50 m (canonSys cfg.pyDes k)).res = res0 cfg.pyDes m := eq_of_sameRes hres
  have hmore := load_more cfg 50 n m (canonSys cfg.pyDes k) (by rw [hres']; exact res0_ne _ _)
  obtain ⟨⟨f1, f2, f3⟩, f4⟩ := Fr.load cfg (region_ok cfg m) (50 + n) m (mem_region_self m) s (canonSys cfg.pyDes k)
    (fun q hq => by rw [get_canonSys, hG.entries]; exact canon_congr (hkx q hq).symm)
  rw [hmore] at f1 f2 f3
  unfold logOK at hlog
  simp only [Bool.and_eq_true, decide_eq_true_eq] at hlog
  obtain ⟨hnd, hev⟩ := hlog
  rw [← f2] at hnd hev
  have hev' := List.all_eq_true.1 hev
  have hdrop : ∀ p, Ev.drop p ∈ (load cfg (50 + n) m s).log → cfg.pyDes ≠ .package ∧ ∀ q, parent q = some p → mem (region m) q = true := by
    intro p hpd
    have := hev' _ hpd
    simp only [Bool.and_eq_true, decide_eq_true_eq] at this
    refine ⟨this.1.1, fun q hq => ?_⟩
    obtain ⟨x, hxc⟩ := (parent_facts cfg.pyDes hq).2.1
    exact List.all_eq_true.1 this.2 (x, q) hxc
  have hsub := region_after cfg.pyDes (mem_region_self m)
  constructor
  · rw [f1, hres', hm]; rfl
  · rw [hm]
    refine ⟨hG.closed.or m, fun q => ?_⟩
    show _ = canon cfg.pyDes (L ||| after cfg.pyDes m) q
    by_cases hq : mem (region m) q = true
    · rw [f3 q hq]
      have h1 := List.all_eq_true.1 hsys q (M.mem_all q)
      rw [hq] at h1
      simp only [Bool.not_true, Bool.false_or, decide_eq_true_eq] at h1
      rw [h1]
      exact canon_congr (by rw [mem_or, mem_or, hkx q hq])
    · rw [f4 q hq fun p hpq hpd => hq ((hdrop p hpd).2 q hpq), hG.entries]
      refine canon_congr ?_
      rw [mem_or]
      cases h : mem (after cfg.pyDes m) q with
      | false => rw [Bool.or_false]
      | true => exact absurd (mem_of_sub hsub h) hq
  · intro _; exact hnd
  · intro hl q hq
    have := hev' _ (mem_starts hq)
    simp only [hl, Bool.and_eq_true, Bool.not_eq_true', Bool.or_eq_true, ne_eq, not_true, decide_false, Bool.and_false, Bool.false_eq_true, or_false] at this
    rw [hl] at hsub
    rw [hl]
    exact ⟨by rw [← hkx q (mem_of_sub hsub this.2)]; exact this.1, this.2⟩
  · intro hl p hpd
    exact (hdrop p hpd).1 hl

theorem load_there (cfg : Cfg) (n : Nat) (m : M) (s : Sys) (h : (get s m).isSome = true) : load cfg (n + 1) m s = ⟨.ok (), s, []⟩ := by
  rw [load, if_pos h]

theorem load_parent (cfg : Cfg) (n : Nat) {m p : M} (s : Sys) (hp : parent m = some p) (h : (get s m).isSome = false)
    (hok : (load cfg (n + 1) p s).res = .ok () → (get (load cfg (n + 1) p s).sys p).isSome = true) :
    load cfg (n + 2) m s = (load cfg (n + 1) p s).andThen (load cfg (n + 2) m) := by
  have hno : ¬ (get s m).isSome = true := by rw [h]; exact Bool.false_ne_true
  rw [load, if_neg hno, hp]
  simp only
  revert hok
  generalize load cfg (n + 1) p s = r
  intro hok
  unfold Res.andThen
  cases hr : r.res with
  | error e => rfl
  | ok u =>
    cases u
    simp only
    have h1 := hok hr
    rw [load]
    by_cases hg : (get r.sys m).isSome = true
    · rw [if_pos hg, if_pos hg]
    · rw [if_neg hg, if_neg hg, hp]
      simp only
      rw [load_there cfg n p _ h1]
      simp only [Res.andThen, List.nil_append]
      rw [if_neg hg]

theorem isSome_canon (l : Layout) (L : Nat) (q : M) : (canon l L q).isSome = mem L q := by
  unfold canon; cases mem L q <;> rfl

theorem load_good' (cfg : Cfg) (hc : M.all.all (check cfg) = true) : ∀ (d : Nat) (m : M), rank m = d → ∀ {L : Nat} {s : Sys},
    Good cfg.pyDes L s → ∀ n, LoadOK cfg.pyDes m L (load cfg (50 + n + d) m s)
  | d, m, hd, L, s, hG, n => by
    cases hm : mem L m with
    | true =>
      rw [show 50 + n + d = (49 + n + d) + 1 by omega, load_there cfg _ m s (by rw [hG.entries, isSome_canon, hm])]
      exact .idle hG hm
    | false =>
      cases hp : parent m with
      | none =>
        rw [Nat.add_assoc]
        exact load_checked cfg hc m hG hm (fun p h => by rw [hp] at h; exact absurd h (by simp)) _
      | some p =>
        cases hpL : mem L p with
        | true =>
          rw [Nat.add_assoc]
          exact load_checked cfg hc m hG hm (fun p' h => by rw [hp] at h; cases h; exact hpL) _
        | false =>
          have hrk := rank_parent m p hp
          obtain ⟨d', rfl⟩ : ∃ d', d = d' + 1 := ⟨rank p, by omega⟩
          have ih := load_good' cfg hc d' p (by omega) hG n
          obtain ⟨-, -, hpe, hpo⟩ := parent_facts cfg.pyDes hp
          have ih1 := ih.res
          have ih2 := ih.good
          rw [hpL] at ih1 ih2
          simp only [Bool.false_eq_true, if_false] at ih1 ih2
          rw [show 50 + n + (d' + 1) = (49 + n + d') + 2 by omega]
          rw [show 50 + n + d' = (49 + n + d') + 1 by omega] at ih ih1 ih2
          rw [load_parent cfg (49 + n + d') s hp (by rw [hG.entries, isSome_canon, hm]) (fun hr => by
            rw [ih2.entries, isSome_canon, mem_or, (hpo (by rw [← ih1]; exact hr)).1, Bool.or_true])]
          cases hrp : res0 cfg.pyDes p with
          | error e =>
            obtain ⟨ha, hr⟩ := hpe e hrp
            have hthen : (load cfg (49 + n + d' + 1) p s).andThen (load cfg (49 + n + d' + 2) m) = load cfg (49 + n + d' + 1) p s := by
              unfold Res.andThen; rw [ih1, hrp]
            rw [hthen]
            constructor
            · rw [ih1, hm, hrp]; simp only [Bool.false_eq_true, if_false]; exact hr.symm
            · rw [hm]; simp only [Bool.false_eq_true, if_false]; rw [ha]; exact ih2
            · exact ih.nodup
            · rw [ha]; exact ih.fresh
            · exact ih.nodrop
          | ok u =>
            cases u
            obtain ⟨ho1, ho2, ho3⟩ := hpo hrp
            have hthen : (load cfg (49 + n + d' + 1) p s).andThen (load cfg (49 + n + d' + 2) m) =
                { load cfg (49 + n + d' + 2) m (load cfg (49 + n + d' + 1) p s).sys with
                  log := (load cfg (49 + n + d' + 1) p s).log ++ (load cfg (49 + n + d' + 2) m (load cfg (49 + n + d' + 1) p s).sys).log } := by
              conv => lhs; unfold Res.andThen
              rw [ih1, hrp]
            rw [hthen]
            cases hm1 : mem (after cfg.pyDes p) m with
            | true =>
              obtain ⟨ha, hr⟩ := ho3 hm1
              rw [load_there cfg _ m _ (by rw [ih2.entries, isSome_canon, mem_or, hm1, Bool.or_true])]
              constructor
              · rw [hm]; exact hr.symm
              · rw [hm]; simp only [Bool.false_eq_true, if_false]; rw [ha]; exact ih2
              · simp only [List.append_nil]; exact ih.nodup
              · simp only [List.append_nil]; rw [ha]; exact ih.fresh
              · simp only [List.append_nil]; exact ih.nodrop
            | false =>
              have hchk := load_checked cfg hc m ih2 (by rw [mem_or, hm, hm1]; rfl)
                (fun p' h => by rw [hp] at h; cases h; rw [mem_or, ho1, Bool.or_true]) (n + d' + 1)
              rw [show 50 + (n + d' + 1) = 49 + n + d' + 2 by omega] at hchk
              have hm2 : mem (L ||| after cfg.pyDes p) m = false := by rw [mem_or, hm, hm1]; rfl
              have c1 := hchk.res
              have c2 := hchk.good
              rw [hm2] at c1 c2
              simp only [Bool.false_eq_true, if_false] at c1 c2
              have hor : L ||| after cfg.pyDes p ||| after cfg.pyDes m = L ||| after cfg.pyDes m := by
                rw [Nat.or_assoc, of_decide_eq_true ho2]
              rw [hor] at c2
              constructor
              · rw [hm]; exact c1
              · rw [hm]; exact c2
              · intro hl
                simp only [starts_append]
                refine List.nodup_append.2 ⟨ih.nodup hl, hchk.nodup hl, ?_⟩
                rintro a ha b hb rfl
                have h1 := (ih.fresh hl a ha).2
                have h2 := (hchk.fresh hl a hb).1
                rw [mem_or, h1, Bool.or_true] at h2
                exact absurd h2 (by decide)
              · intro hl q hq
                simp only [starts_append, List.mem_append] at hq
                rcases hq with hq | hq
                · exact ⟨(ih.fresh hl q hq).1, mem_of_sub ho2 (ih.fresh hl q hq).2⟩
                · have := hchk.fresh hl q hq
                  rw [mem_or, Bool.or_eq_false_iff] at this
                  exact ⟨this.1.1, this.2⟩
              · intro hl p' hp'
                simp only [List.mem_append] at hp'
                rcases hp' with h | h
                · exact ih.nodrop hl p' h
                · exact hchk.nodrop hl p' h

/-- Every import of a module in every state between two statements. -/
theorem load_good (cfg : Cfg) (hc : M.all.all (check cfg) = true) (m : M) {L : Nat} {s : Sys} (hG : Good cfg.pyDes L s) :
    LoadOK cfg.pyDes m L (load cfg depth m s) := by
  have := rank_le m
  have h := load_good' cfg hc (rank m) m rfl hG (50 - rank m)
  rwa [show 50 + (50 - rank m) + rank m = depth by unfold depth; omega] at h

end Verif.Model.Imports
