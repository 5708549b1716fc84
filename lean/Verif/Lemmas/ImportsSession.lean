import Verif.Lemmas.ImportsGood
import Verif.Lemmas.ImportsCheck5
import Verif.Lemmas.ImportsCheck6

namespace Verif.Model.Imports

theorem check_all : ∀ cfg, M.all.all (check cfg) = true
  | ⟨.package, true⟩ => check_package_true
  | ⟨.package, false⟩ => check_package_false
  | ⟨.single, true⟩ => check_single_true
  | ⟨.single, false⟩ => check_single_false
  | ⟨.absent, true⟩ => check_absent_true
  | ⟨.absent, false⟩ => check_absent_false

theorem Good.nil (l : Layout) : Good l 0 [] := by
  have h0 : ∀ q, mem 0 q = false := fun q => by simp [mem]
  refine ⟨fun q hq => ?_, fun q => ?_⟩
  · rw [h0] at hq; exact absurd hq (by decide)
  · unfold canon; rw [h0]; rfl

/-- From a good state to a good state; `A` is what was added. -/
structure Run (l : Layout) (L : Nat) (r : Res) (A : Nat) : Prop where
  good : Good l (L ||| A) r.sys
  nodup : l = .package → (starts r.log).Nodup
  fresh : l = .package → ∀ q ∈ starts r.log, mem L q = false ∧ mem (L ||| A) q = true
  nodrop : l = .package → ∀ p, Ev.drop p ∉ r.log

theorem Good.congr {l : Layout} {L K : Nat} {s : Sys} (h : Good l L s) (he : ∀ q, mem L q = mem K q) : Good l K s := by
  refine ⟨fun q hq => ?_, fun q => ?_⟩
  · rw [← he] at hq
    exact ⟨(h.closed q hq).1, fun r hr => by rw [← he]; exact (h.closed q hq).2 r hr⟩
  · rw [h.entries]; exact canon_congr (he q)

theorem Run.idle {l : Layout} {L : Nat} {s : Sys} (h : Good l L s) (e : Except E Unit) : Run l L ⟨e, s, []⟩ 0 := by
  constructor
  · rw [Nat.or_zero]; exact h
  · intro _; exact List.nodup_nil
  · intro _ q hq; exact absurd hq (by simp [starts])
  · intro _ p hp; exact absurd hp (by simp)

theorem Run.load (cfg : Cfg) (m : M) {L : Nat} {s : Sys} (hG : Good cfg.pyDes L s) :
    Run cfg.pyDes L (Imports.load cfg depth m s) (after cfg.pyDes m) := by
  have h := load_good cfg (check_all cfg) m hG
  constructor
  · have hg := h.good
    cases hm : mem L m with
    | false => rw [hm] at hg; exact hg
    | true =>
      rw [hm] at hg
      refine Good.congr hg fun q => ?_
      rw [if_pos rfl, mem_or]
      cases hq : mem (after cfg.pyDes m) q with
      | false => rw [Bool.or_false]
      | true => rw [(hG.closed m hm).2 q hq]; rfl
  · exact h.nodup
  · intro hl q hq
    exact ⟨(h.fresh hl q hq).1, by rw [mem_or, (h.fresh hl q hq).2, Bool.or_true]⟩
  · exact h.nodrop

theorem Run.andThen {l : Layout} {L A B : Nat} {r : Res} {f : Sys → Res} (h : Run l L r A) (hr : r.res = .ok ())
    (hf : Run l (L ||| A) (f r.sys) B) : Run l L (r.andThen f) (A ||| B) ∧ (r.andThen f).res = (f r.sys).res ∧ (r.andThen f).sys = (f r.sys).sys := by
  have he : r.andThen f = { f r.sys with log := r.log ++ (f r.sys).log } := by
    unfold Res.andThen; rw [hr]
  rw [he]
  refine ⟨?_, rfl, rfl⟩
  constructor
  · rw [← Nat.or_assoc]; exact hf.good
  · intro hl
    simp only [starts_append]
    refine List.nodup_append.2 ⟨h.nodup hl, hf.nodup hl, ?_⟩
    rintro a ha b hb rfl
    have h1 := (h.fresh hl a ha).2
    have h2 := (hf.fresh hl a hb).1
    rw [h1] at h2
    exact absurd h2 (by decide)
  · intro hl q hq
    simp only [starts_append, List.mem_append] at hq
    rw [← Nat.or_assoc]
    rcases hq with hq | hq
    · exact ⟨(h.fresh hl q hq).1, by rw [mem_or, (h.fresh hl q hq).2]; rfl⟩
    · have := hf.fresh hl q hq
      rw [mem_or, Bool.or_eq_false_iff] at this
      exact ⟨this.1.1, this.2⟩
  · intro hl p hp
    simp only [List.mem_append] at hp
    rcases hp with h' | h'
    · exact h.nodrop hl p h'
    · exact hf.nodrop hl p h'

theorem Run.stop {l : Layout} {L A : Nat} {r : Res} {f : Sys → Res} {e : E} (h : Run l L r A) (hr : r.res = .error e) :
    Run l L (r.andThen f) A ∧ (r.andThen f).res = .error e := by
  have he : r.andThen f = r := by unfold Res.andThen; rw [hr]
  rw [he]; exact ⟨h, hr⟩

/-- What a name of a package or module stands for in a good state. -/
theorem getattr_good {l : Layout} {L : Nat} {s : Sys} (hG : Good l L s) {p : M} (hp : mem L p = true) (x : Id) :
    getattr s p x = match (cell0 l p).ns.lookup x with
      | some v => some v
      | none => match child p x with
        | none => none
        | some q => if mem L q && (cell0 l q).bound then some (.mod q) else none := by
  unfold getattr
  rw [hG.entries p]
  have : canon l L p = some (cell0 l p) := by unfold canon; rw [hp]; rfl
  rw [this]
  simp only
  cases (cell0 l p).ns.lookup x with
  | some v => rfl
  | none =>
    simp only
    cases child p x with
    | none => rfl
    | some q =>
      simp only
      rw [hG.entries q]
      unfold canon
      cases mem L q with
      | false => rfl
      | true => simp only [if_true, Bool.true_and]

theorem child_parent {p q : M} {x : Id} (h : child p x = some q) : parent q = some p := by
  have hall : (M.all.all fun p => (children p).all fun c => decide (parent c.2 = some p)) = true := by decide +kernel
  have h1 := List.all_eq_true.1 hall p (M.mem_all p)
  unfold child at h
  have hmem : (x, q) ∈ children p := by
    revert h
    generalize children p = cs
    intro h
    induction cs with
    | nil => exact absurd h (by simp)
    | cons c cs ih =>
      obtain ⟨y, r⟩ := c
      rw [List.lookup_cons] at h
      by_cases hy : (x == y) = true
      · rw [hy] at h
        simp only [Option.some.injEq] at h
        rw [eq_of_beq hy, h]
        exact List.mem_cons_self
      · simp only [Bool.not_eq_true] at hy
        rw [hy] at h
        exact List.mem_cons_of_mem _ (ih h)
  exact of_decide_eq_true (List.all_eq_true.1 h1 (x, q) hmem)

theorem bound_child {p q : M} {x : Id} (h : child p x = some q) : (cell0 .package q).bound = true := by
  unfold cell0; simp only; rw [child_parent h]; rfl

/-- What the fromlist adds. -/
def footFrom (l : Layout) (p : M) : List Id → Nat
  | [] => 0
  | x :: xs => (match (cell0 l p).ns.lookup x with
    | some _ => 0
    | none => match child p x with
      | none => 0
      | some q => after l q) ||| footFrom l p xs

theorem present_package {cfg : Cfg} (h : cfg.pyDes = .package) (q : M) : present cfg q = true := by
  cases q <;> simp [present, h]

theorem fromList_run (cfg : Cfg) (p : M) : ∀ (xs : List Id) {L : Nat} {s : Sys}, Good cfg.pyDes L s → mem L p = true →
    ∃ A, Run cfg.pyDes L (fromList cfg (load cfg depth) p xs s) A ∧ (cfg.pyDes = .package →
      (fromList cfg (load cfg depth) p xs s).res = .ok () ∧ ∀ q, mem (L ||| A) q = mem (L ||| footFrom .package p xs) q)
  | [], L, s, hG, _ => by
    refine ⟨0, ?_, fun _ => ⟨rfl, fun q => by simp [footFrom]⟩⟩
    rw [fromList]; exact .idle hG _
  | x :: xs, L, s, hG, hp => by
    -- the first name
    let r : Res := match getattr s p x with
      | some _ => ⟨.ok (), s, []⟩
      | none => match child p x with
        | none => ⟨.ok (), s, []⟩
        | some q => if present cfg q then load cfg depth q s else ⟨.ok (), s, []⟩
    have hrun : ∃ A, Run cfg.pyDes L r A ∧ (cfg.pyDes = .package → r.res = .ok () ∧ ∀ q, mem (L ||| A) q = mem (L ||| footFrom .package p [x]) q) := by
      have hga := getattr_good hG hp x
      cases hx : getattr s p x with
      | some v =>
        have hr : r = ⟨.ok (), s, []⟩ := by simp only [r, hx]
        rw [hr]
        refine ⟨0, .idle hG _, fun hl => ⟨rfl, fun q => ?_⟩⟩
        rw [hx, hl] at hga
        simp only [footFrom]
        cases hlk : (cell0 .package p).ns.lookup x with
        | some w => simp only [Nat.or_zero]
        | none =>
          rw [hlk] at hga
          simp only at hga ⊢
          cases hc : child p x with
          | none => simp only [Nat.or_zero]
          | some c =>
            rw [hc] at hga
            simp only at hga ⊢
            by_cases hcL : mem L c = true
            · rw [mem_or, mem_or, mem_or]
              have h0 : mem 0 q = false := by simp [mem]
              rw [h0, Bool.or_false, Bool.or_false]
              cases hq : mem (after .package c) q with
              | false => rw [Bool.or_false]
              | true =>
                have := (hG.closed c hcL).2 q (by rw [hl]; exact hq)
                rw [this]; rfl
            · rw [Bool.not_eq_true] at hcL
              rw [hcL] at hga
              exact absurd hga (by simp)
      | none =>
        rw [hx] at hga
        cases hc : child p x with
        | none =>
          have hr : r = ⟨.ok (), s, []⟩ := by simp only [r, hx, hc]
          rw [hr]
          refine ⟨0, .idle hG _, fun hl => ⟨rfl, fun q => ?_⟩⟩
          simp only [footFrom, hc]
          cases (cell0 .package p).ns.lookup x <;> simp only [Nat.or_zero]
        | some c =>
          by_cases hpr : present cfg c = true
          · have hr : r = load cfg depth c s := by simp only [r, hx, hc]; rw [if_pos hpr]
            rw [hr]
            refine ⟨_, Run.load cfg c hG, fun hl => ⟨?_, fun q => ?_⟩⟩
            · have := (load_good cfg (check_all cfg) c hG).res
              rw [this, hl]
              simp only [res0, ite_self]
            · rw [hl] at hga ⊢
              cases hlk : (cell0 .package p).ns.lookup x with
              | some w => rw [hlk] at hga; exact absurd hga (by simp)
              | none =>
                simp only [footFrom, hlk, hc, Nat.or_zero]
          · have hr : r = ⟨.ok (), s, []⟩ := by simp only [r, hx, hc]; rw [if_neg hpr]
            rw [hr]
            exact ⟨0, .idle hG _, fun hl => absurd (present_package hl c) hpr⟩
    obtain ⟨A, hA, hAp⟩ := hrun
    have hfl : fromList cfg (load cfg depth) p (x :: xs) s = r.andThen (fromList cfg (load cfg depth) p xs) := by
      rw [fromList]; rfl
    rw [hfl]
    cases hres : r.res with
    | error e =>
      refine ⟨A, (hA.stop hres).1, fun hl => ?_⟩
      rw [(hAp hl).1] at hres
      exact absurd hres (by simp)
    | ok u =>
      cases u
      obtain ⟨B, hB, hBp⟩ := fromList_run cfg p xs hA.good (by rw [mem_or, hp]; rfl)
      obtain ⟨h1, h2, -⟩ := hA.andThen (f := fromList cfg (load cfg depth) p xs) hres hB
      refine ⟨A ||| B, h1, fun hl => ⟨by rw [h2]; exact (hBp hl).1, fun q => ?_⟩⟩
      have e1 := (hAp hl).2 q
      have e2 := (hBp hl).2 q
      simp only [footFrom, mem_or] at e1 e2 ⊢
      have h0 : mem 0 q = false := by simp [mem]
      rw [h0, Bool.or_false] at e1
      rw [← Bool.or_assoc, e2, e1, Bool.or_assoc]

/-- What a statement adds (pyDes as in the repository). -/
def foot : User → Nat
  | .imp m => after .package m
  | .impMissing m => after .package m
  | .from_ p xs => after .package p ||| footFrom .package p xs

theorem self_after (m : M) : mem (after .package m) m = true := mem_region_self m

theorem load_package {cfg : Cfg} (hl : cfg.pyDes = .package) (m : M) {L : Nat} {s : Sys} (hG : Good cfg.pyDes L s) :
    (load cfg depth m s).res = .ok () := by
  rw [(load_good cfg (check_all cfg) m hG).res, hl]; simp only [res0, ite_self]

/-- One statement. -/
theorem step_run (cfg : Cfg) (u : User) {L : Nat} {s : Sys} (hG : Good cfg.pyDes L s) :
    ∃ A, Run cfg.pyDes L ⟨.ok (), (step cfg u s).2.1, (step cfg u s).2.2⟩ A ∧
      (cfg.pyDes = .package → ∀ q, mem (L ||| A) q = mem (L ||| foot u) q) := by
  have hcopy : ∀ {r : Res} {A : Nat}, Run cfg.pyDes L r A → Run cfg.pyDes L ⟨.ok (), r.sys, r.log⟩ A :=
    fun h => ⟨h.good, h.nodup, h.fresh, h.nodrop⟩
  cases u with
  | imp m => exact ⟨_, hcopy (Run.load cfg m hG), fun hl q => by rw [hl]; rfl⟩
  | impMissing m => exact ⟨_, hcopy (Run.load cfg m hG), fun hl q => by rw [hl]; rfl⟩
  | from_ p xs =>
    have h := load_good cfg (check_all cfg) p hG
    have hr := Run.load cfg p hG
    cases hres : (load cfg depth p s).res with
    | error e =>
      refine ⟨_, hcopy (hr.stop (f := fun s1 => fromList cfg (load cfg depth) p xs s1) hres).1, fun hl => ?_⟩
      rw [load_package hl p hG] at hres
      exact absurd hres (by simp)
    | ok u =>
      cases u
      have hpL : mem (L ||| after cfg.pyDes p) p = true := by
        rw [mem_or]
        cases hm : mem L p with
        | true => rfl
        | false =>
          rw [Bool.false_or]
          have h1 := h.res
          rw [hres, hm] at h1
          have h1' : res0 cfg.pyDes p = .ok () := h1.symm
          have hall : ∀ l, (M.all.all fun p => !sameRes (res0 l p) (.ok ()) || mem (after l p) p) = true := by
            intro l; cases l <;> decide +kernel
          have h2 := List.all_eq_true.1 (hall cfg.pyDes) p (M.mem_all p)
          rw [h1'] at h2
          exact h2
      obtain ⟨B, hB, hBp⟩ := fromList_run cfg p xs hr.good hpL
      refine ⟨_, hcopy (hr.andThen (f := fun s1 => fromList cfg (load cfg depth) p xs s1) hres hB).1, fun hl q => ?_⟩
      have := (hBp hl).2 q
      simp only [foot]
      rw [hl] at this ⊢
      rw [← Nat.or_assoc, this, ← Nat.or_assoc]

/-- What a session adds. -/
def foots : List User → Nat
  | [] => 0
  | u :: us => foot u ||| foots us

theorem session_run (cfg : Cfg) : ∀ (us : List User) {L : Nat} {s : Sys}, Good cfg.pyDes L s →
    ∃ A, Run cfg.pyDes L ⟨.ok (), (session cfg us s).1, (session cfg us s).2⟩ A ∧
      (cfg.pyDes = .package → ∀ q, mem (L ||| A) q = mem (L ||| foots us) q)
  | [], L, s, hG => ⟨0, .idle hG _, fun _ _ => rfl⟩
  | u :: us, L, s, hG => by
    obtain ⟨A, hA, hAp⟩ := step_run cfg u hG
    obtain ⟨B, hB, hBp⟩ := session_run cfg us hA.good
    have h := hA.andThen (f := fun s1 => ⟨.ok (), (session cfg us s1).1, (session cfg us s1).2⟩) rfl hB
    refine ⟨A ||| B, h.1, fun hl q => ?_⟩
    have e1 := hAp hl q
    have e2 := hBp hl q
    simp only [foots, mem_or] at e1 e2 ⊢
    rw [← Bool.or_assoc, e2, e1, Bool.or_assoc]

/-- The state after any session in a fresh interpreter. -/
theorem session_good (cfg : Cfg) (us : List User) : ∃ L, Good cfg.pyDes L (session cfg us []).1 := by
  obtain ⟨A, hA, -⟩ := session_run cfg us (Good.nil cfg.pyDes)
  exact ⟨_, hA.good⟩

/-- What a name of a module is, or a submodule. -/
def valOf (p : M) (x : Id) : Option Val :=
  match (nsTbl p).lookup x with
  | some v => some v
  | none => (child p x).map .mod

theorem importFrom_good {cfg : Cfg} (hl : cfg.pyDes = .package) {L : Nat} {s : Sys} (hG : Good cfg.pyDes L s) {p : M} (hp : mem L p = true)
    (x : Id) (hx : (nsTbl p).lookup x = none → ∀ q, child p x = some q → mem L q = true) :
    importFrom cfg s p x = match valOf p x with | some v => .ok v | none => .error .importError := by
  have h := getattr_good hG hp x
  rw [hl] at h
  unfold importFrom valOf
  rw [h]
  have hns : (cell0 .package p).ns = nsTbl p := rfl
  rw [hns]
  cases hlk : (nsTbl p).lookup x with
  | some v => rfl
  | none =>
    simp only
    cases hc : child p x with
    | none => rfl
    | some q =>
      simp only
      rw [hx hlk q hc, bound_child hc]
      rfl

theorem footFrom_mem {p : M} {x : Id} {q : M} : ∀ {xs : List Id}, x ∈ xs → (nsTbl p).lookup x = none → child p x = some q →
    mem (footFrom .package p xs) q = true
  | a :: xs, hx, hlk, hc => by
    rw [footFrom, mem_or]
    rcases List.mem_cons.1 hx with rfl | hx
    · have : (cell0 .package p).ns.lookup x = none := hlk
      rw [this]
      simp only [hc]
      rw [self_after]; rfl
    · rw [footFrom_mem hx hlk hc, Bool.or_true]

theorem importAll_good {cfg : Cfg} (hl : cfg.pyDes = .package) {L : Nat} {s : Sys} (hG : Good cfg.pyDes L s) {p : M} (hp : mem L p = true) :
    ∀ (xs : List Id), (∀ x ∈ xs, (nsTbl p).lookup x = none → ∀ q, child p x = some q → mem L q = true) →
    importAll cfg s p xs = match xs.mapM (valOf p) with | some vs => .ok vs | none => .error .importError
  | [], _ => rfl
  | x :: xs, h => by
    rw [importAll, importFrom_good hl hG hp x (h x List.mem_cons_self),
      importAll_good hl hG hp xs fun y hy => h y (List.mem_cons_of_mem _ hy), List.mapM_cons]
    cases valOf p x with
    | none => rfl
    | some v =>
      simp only
      cases xs.mapM (valOf p) with
      | none => rfl
      | some vs => rfl

/-- The value of a `from … import` statement. -/
theorem step_from {cfg : Cfg} (hl : cfg.pyDes = .package) (p : M) (xs : List Id) {L : Nat} {s : Sys} (hG : Good cfg.pyDes L s) :
    (step cfg (.from_ p xs) s).1 = match xs.mapM (valOf p) with | some vs => .ok vs | none => .error .importError := by
  have hr := Run.load cfg p hG
  have hres := load_package hl p hG
  have hpL : mem (L ||| after cfg.pyDes p) p = true := by rw [mem_or, hl, self_after, Bool.or_true]
  obtain ⟨B, hB, hBp⟩ := fromList_run cfg p xs hr.good hpL
  obtain ⟨h1, h2, h3⟩ := hr.andThen (f := fun s1 => fromList cfg (load cfg depth) p xs s1) hres hB
  unfold step
  simp only
  rw [h2, (hBp hl).1]
  simp only
  rw [h3]
  refine importAll_good hl hB.good (by rw [mem_or, hpL]; rfl) xs fun x hx hlk q hq => ?_
  rw [(hBp hl).2 q, mem_or, footFrom_mem hx hlk hq, Bool.or_true]

end Verif.Model.Imports
