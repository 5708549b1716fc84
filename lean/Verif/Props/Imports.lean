import Verif.Lemmas.ImportsSession
/-! C110, C111: the modules of the library load each other in circles; what a program gets by importing them, in any order. -/
namespace Verif.Props
namespace Imp
open Verif.Model.Imports

/-! ### Specification -/

/-- What a name of a module means according to the text of the files alone, with no notion of when anything runs: what the module defines under
that name, or what it takes from where it says it takes it, or the submodule of that name. -/
inductive Origin : M → Id → Val → Prop
  | defn {P x uses} (h : Stmt.defn x uses ∈ code P) : Origin P x (.obj P x)
  | ext {P x} (h : Stmt.ext x ∈ code P) : Origin P x (.ext x)
  | imp {P q} (h : Stmt.imp q ∈ code P) : Origin P (lastName (top q)) (.mod (top q))
  | from_ {P Q xs x y v} (h : Stmt.from_ Q xs ∈ code P) (hx : (x, y) ∈ xs) (ho : Origin Q x v) : Origin P y v
  | alias {P x b q a v} (h : Stmt.alias x b q a ∈ code P) (hb : Origin P b (.mod q)) (ho : Origin q a v) : Origin P x v
  | copy {P x y v} (h : Stmt.copy x y ∈ code P) (ho : Origin P y v) : Origin P x v
  | tryFrom {P Q x v} (h : Stmt.tryFrom Q x ∈ code P) (ho : Origin Q x v) : Origin P x v
  | tryCrypto {P x} (h : Stmt.tryCrypto x ∈ code P) : Origin P x .rsaOrNone
  | sub {P x q} (h : child P x = some q) : Origin P x (.mod q)

/-- The meanings of several names. -/
inductive Means (P : M) : List Id → List Val → Prop
  | nil : Means P [] []
  | cons {x xs v vs} (h : Origin P x v) (t : Means P xs vs) : Means P (x :: xs) (v :: vs)

/-- `sys.modules` after a session in a fresh interpreter. -/
def modulesAfter (cfg : Cfg) (us : List User) : Sys := (session cfg us []).1

/-- What one more statement gives after a session. -/
def gives (cfg : Cfg) (us : List User) (u : User) : Except E (List Val) := (step cfg u (modulesAfter cfg us)).1

/-- Where the library needs pyDes: pythoncard.security and pythoncardx.crypto. -/
def crypto : List M := [
  .pythoncard_security, .pythoncard_security_key, .pythoncard_security_keybuilder, .pythoncard_security_keypair,
  .pythoncard_security_messagedigest, .pythoncard_security_privatekey, .pythoncard_security_publickey, .pythoncard_security_random,
  .pythoncard_security_secretkey, .pythoncard_security_signature, .pythoncardx_crypto, .pythoncardx_crypto_cipher]

/-- The modules of it that stay behind when the import of pyDes fails. -/
def leftovers : List M := [.pythoncard_security_key, .pythoncard_security_privatekey, .pythoncard_security_publickey]

/-- How an import of these fails: with pyDes installed as one module there is no `pyDes.pyDes`, and with no pyDes no `pyDes`. -/
def lacking : Layout → E
  | .single => .importError
  | _ => .moduleNotFound

/-- The global names that functions of the library read and no statement binds. -/
def undefinedNames : List (M × Id) := [
  (.pythoncard_framework_aid, .aidOfset),
  (.pythoncard_framework_jcsystem, .NullPointerException),
  (.pythoncard_framework_jcsystem, .ArrayIndexOutOfBoundsException),
  (.pythoncard_framework_jcsystem, .NegativeArraySizeException),
  (.pythoncard_framework_util, .ArrayIndexoutOfBoundsException),
  (.pythoncard_security_messagedigest, .ArrayIndexOutOfBoundsException),
  (.pythoncard_security_privatekey, .keypair),
  (.pythoncard_security_random, .ArrayIndexOutOfBoundException),
  (.pythoncard_security_signature, .CryptoException),
  (.pythoncardx_framework_tlv_bertlv, .chunk),
  (.pythoncardx_framework_tlv_bertlv, .startOff)]

/-! ### The specification and the tables -/

/-- Search for a derivation of `Origin`. -/
def finds : Nat → M → Id → Val → Bool
  | 0, _, _, _ => false
  | n + 1, P, x, v =>
    (match child P x with | some q => decide (v = .mod q) | none => false) ||
    (code P).any fun st => match st with
      | .defn y _ => decide (y = x) && decide (v = .obj P x)
      | .ext y => decide (y = x) && decide (v = .ext x)
      | .imp q => decide (lastName (top q) = x) && decide (v = .mod (top q))
      | .from_ Q xs => xs.any fun c => decide (c.2 = x) && finds n Q c.1 v
      | .alias y b q a => decide (y = x) && finds n P b (.mod q) && finds n q a v
      | .copy y z => decide (y = x) && finds n P z v
      | .tryFrom Q y => decide (y = x) && finds n Q y v
      | .tryCrypto y => decide (y = x) && decide (v = .rsaOrNone)

theorem finds_sound (n : Nat) (P : M) (x : Id) (v : Val) (h : finds n P x v = true) : Origin P x v := by
  induction n generalizing P x v with
  | zero => exact nomatch h
  | succ n ih =>
    rw [finds, Bool.or_eq_true] at h
    rcases h with h | h
    · cases hc : child P x with
      | none => rw [hc] at h; exact absurd h (by simp)
      | some q => rw [hc] at h; rw [of_decide_eq_true h]; exact .sub hc
    · rw [List.any_eq_true] at h
      obtain ⟨st, hst, h⟩ := h
      cases st with
      | defn y u =>
        simp only [Bool.and_eq_true, decide_eq_true_eq] at h
        obtain ⟨rfl, rfl⟩ := h; exact .defn hst
      | ext y =>
        simp only [Bool.and_eq_true, decide_eq_true_eq] at h
        obtain ⟨rfl, rfl⟩ := h; exact .ext hst
      | imp q =>
        simp only [Bool.and_eq_true, decide_eq_true_eq] at h
        obtain ⟨rfl, rfl⟩ := h; exact .imp hst
      | from_ Q xs =>
        simp only [List.any_eq_true, Bool.and_eq_true, decide_eq_true_eq] at h
        obtain ⟨⟨a, b⟩, hx, rfl, hf⟩ := h
        exact .from_ hst hx (ih Q a v hf)
      | alias y b q a =>
        simp only [Bool.and_eq_true, decide_eq_true_eq] at h
        obtain ⟨⟨rfl, hb⟩, ha⟩ := h
        exact .alias hst (ih P b _ hb) (ih q a v ha)
      | copy y z =>
        simp only [Bool.and_eq_true, decide_eq_true_eq] at h
        obtain ⟨rfl, hf⟩ := h
        exact .copy hst (ih P z v hf)
      | tryFrom Q y =>
        simp only [Bool.and_eq_true, decide_eq_true_eq] at h
        obtain ⟨rfl, hf⟩ := h
        exact .tryFrom hst (ih Q y v hf)
      | tryCrypto y =>
        simp only [Bool.and_eq_true, decide_eq_true_eq] at h
        obtain ⟨rfl, rfl⟩ := h; exact .tryCrypto hst

theorem mem_of_lookup {α β : Type} [BEq α] [LawfulBEq α] {x : α} {v : β} : ∀ {l : List (α × β)}, l.lookup x = some v → (x, v) ∈ l
  | (y, w) :: l, h => by
    rw [List.lookup_cons] at h
    by_cases hy : (x == y) = true
    · rw [hy] at h
      simp only [Option.some.injEq] at h
      rw [eq_of_beq hy, h]; exact List.mem_cons_self
    · simp only [Bool.not_eq_true] at hy
      rw [hy] at h
      exact List.mem_cons_of_mem _ (mem_of_lookup h)

theorem origin_of_ns {P : M} {x : Id} {v : Val} (h : (nsTbl P).lookup x = some v) : Origin P x v := by
  have hall : (M.all.all fun P => (nsTbl P).all fun c => finds 8 P c.1 c.2) = true := by decide +kernel
  exact finds_sound 8 P x v (List.all_eq_true.1 (List.all_eq_true.1 hall P (M.mem_all P)) (x, v) (mem_of_lookup h))

theorem origin_of_val {P : M} {x : Id} {v : Val} (h : valOf P x = some v) : Origin P x v := by
  unfold valOf at h
  cases hlk : (nsTbl P).lookup x with
  | some w => rw [hlk] at h; simp only [Option.some.injEq] at h; rw [← h]; exact origin_of_ns hlk
  | none =>
    rw [hlk] at h
    cases hc : child P x with
    | none => rw [hc] at h; exact absurd h (by simp)
    | some q => rw [hc] at h; simp only [Option.map_some, Option.some.injEq] at h; rw [← h]; exact .sub hc

/-- The tables follow the statements. -/
def follows (P : M) : Stmt → Bool
  | .defn x _ => decide (valOf P x = some (.obj P x))
  | .ext x => decide (valOf P x = some (.ext x))
  | .imp q => decide (valOf P (lastName (top q)) = some (.mod (top q)))
  | .from_ Q xs => xs.all fun c => decide (valOf Q c.1 = valOf P c.2)
  | .alias x _ q a => decide (valOf q a = valOf P x)
  | .copy x y => decide (valOf P y = valOf P x)
  | .tryFrom Q x => decide (valOf Q x = valOf P x)
  | .tryCrypto x => decide (valOf P x = some .rsaOrNone)

theorem follows_all (P : M) (st : Stmt) (h : st ∈ code P) : follows P st = true := by
  have hall : (M.all.all fun P => (code P).all (follows P)) = true := by decide +kernel
  exact List.all_eq_true.1 (List.all_eq_true.1 hall P (M.mem_all P)) st h

theorem val_of_origin {P : M} {x : Id} {v : Val} (h : Origin P x v) : valOf P x = some v := by
  induction h with
  | defn h => exact of_decide_eq_true (follows_all _ _ h)
  | ext h => exact of_decide_eq_true (follows_all _ _ h)
  | imp h => exact of_decide_eq_true (follows_all _ _ h)
  | from_ h hx _ ih =>
    have := of_decide_eq_true (List.all_eq_true.1 (follows_all _ _ h) _ hx)
    rw [← ih]; exact this.symm
  | alias h _ _ _ ih => rw [← ih]; exact (of_decide_eq_true (follows_all _ _ h)).symm
  | copy h _ ih => rw [← ih]; exact (of_decide_eq_true (follows_all _ _ h)).symm
  | tryFrom h _ ih => rw [← ih]; exact (of_decide_eq_true (follows_all _ _ h)).symm
  | tryCrypto h => exact of_decide_eq_true (follows_all _ _ h)
  | @sub P x q h =>
    have hall : (M.all.all fun P => (children P).all fun c => decide (valOf P c.1 = some (.mod c.2))) = true := by decide +kernel
    exact of_decide_eq_true (List.all_eq_true.1 (List.all_eq_true.1 hall P (M.mem_all P)) (x, q) (mem_of_lookup h))

theorem origin_iff {P : M} {x : Id} {v : Val} : Origin P x v ↔ valOf P x = some v := ⟨val_of_origin, origin_of_val⟩

theorem mapM_iff (P : M) : ∀ (xs : List Id) (vs : List Val), xs.mapM (valOf P) = some vs ↔ Means P xs vs
  | [], vs => by
    rw [List.mapM_nil]
    constructor
    · intro h; cases h; exact .nil
    · intro h; cases h; rfl
  | x :: xs, vs => by
    rw [List.mapM_cons]
    constructor
    · intro h
      cases hx : valOf P x with
      | none => rw [hx] at h; exact nomatch h
      | some v =>
        cases hxs : xs.mapM (valOf P) with
        | none => rw [hx, hxs] at h; exact nomatch h
        | some ws =>
          rw [hx, hxs] at h
          cases h
          exact .cons (origin_of_val hx) ((mapM_iff P xs ws).1 hxs)
    · intro h
      cases h with
      | cons h1 h2 => rw [val_of_origin h1, (mapM_iff P xs _).2 h2]; rfl

end Imp

open Verif.Model.Imports Imp

/-! ### C110 -/

/-- With pyDes as in the repository every module can be imported, whatever has been imported before, in whatever order, with or without
statements that failed. -/
theorem C110_any_order (cfg : Cfg) (h : cfg.pyDes = .package) (us : List User) (m : M) :
    gives cfg us (.imp m) = .ok [.mod (top m)] := by
  obtain ⟨L, hG⟩ := session_good cfg us
  unfold gives modulesAfter step
  simp only
  rw [load_package h m hG]; rfl

/-- `from P import x, y, …` gives what the files say the names are, whatever has been imported before; in particular the same object always. -/
theorem C110_values (cfg : Cfg) (h : cfg.pyDes = .package) (us : List User) (P : M) (xs : List Id) (vs : List Val) :
    gives cfg us (.from_ P xs) = .ok vs ↔ Means P xs vs := by
  obtain ⟨L, hG⟩ := session_good cfg us
  rw [← mapM_iff]
  unfold gives modulesAfter
  rw [step_from h P xs hG]
  cases xs.mapM (valOf P) with
  | none => simp
  | some ws => simp

/-- A name that the files do not give is an ImportError, and a module that does not exist a ModuleNotFoundError. -/
theorem C110_missing (cfg : Cfg) (h : cfg.pyDes = .package) (us : List User) (P : M) :
    gives cfg us (.impMissing P) = .error .moduleNotFound ∧
    ∀ xs x, x ∈ xs → (∀ v, ¬ Origin P x v) → gives cfg us (.from_ P xs) = .error .importError := by
  obtain ⟨L, hG⟩ := session_good cfg us
  refine ⟨?_, fun xs x hx hno => ?_⟩
  · unfold gives modulesAfter step
    simp only
    rw [load_package h P hG]
  · have hnone : xs.mapM (valOf P) = none := by
      cases hm : xs.mapM (valOf P) with
      | none => rfl
      | some vs =>
        exfalso
        have hf := (mapM_iff P xs vs).1 hm
        clear hm
        induction hf with
        | nil => exact absurd hx (by simp)
        | cons h1 _ ih =>
          rcases List.mem_cons.1 hx with rfl | hx
          · exact hno _ h1
          · exact ih hx
    unfold gives modulesAfter
    rw [step_from h P xs hG, hnone]

/-- The names of a module have one meaning. -/
theorem C110_one_meaning (P : M) (x : Id) (v w : Val) (hv : Origin P x v) (hw : Origin P x w) : v = w := by
  have := (val_of_origin hv).symm.trans (val_of_origin hw)
  exact Option.some.inj this

/-- The body of each module runs at most once in a session, and no module is taken out of `sys.modules`: there is one class object per class
statement. -/
theorem C110_once (cfg : Cfg) (h : cfg.pyDes = .package) (us : List User) (m : M) :
    (session cfg us []).2.count (.start m) ≤ 1 ∧ Ev.drop m ∉ (session cfg us []).2 := by
  obtain ⟨A, hA, -⟩ := session_run cfg us (Good.nil cfg.pyDes)
  refine ⟨?_, hA.nodrop h m⟩
  have hcount : ∀ log : List Ev, log.count (.start m) = (starts log).count m := by
    intro log
    induction log with
    | nil => rfl
    | cons e log ih =>
      cases e with
      | start q =>
        rw [List.count_cons, ih]
        show _ = (q :: starts log).count m
        rw [List.count_cons]
        by_cases hq : q = m
        · subst hq; simp
        · simp [hq]
      | drop q =>
        rw [List.count_cons, ih]
        show _ = (starts log).count m
        simp
  have hc := hcount (session cfg us []).2
  have hn := List.nodup_iff_count.1 (hA.nodup h) m
  exact hc ▸ hn

/-- A module that is there is finished, and later statements leave it as it is. -/
theorem C110_stable (cfg : Cfg) (us vs : List User) (m : M) (c : Cell) (hm : get (modulesAfter cfg us) m = some c) :
    get (session cfg vs (modulesAfter cfg us)).1 m = some c := by
  obtain ⟨L, hG⟩ := session_good cfg us
  obtain ⟨A, hA, -⟩ := session_run cfg vs hG
  unfold modulesAfter at hm ⊢
  have h2 := hA.good.entries m
  simp only at h2
  rw [h2]
  rw [hG.entries] at hm
  unfold canon at hm ⊢
  rw [mem_or]
  cases hL : mem L m with
  | false => rw [hL] at hm; exact absurd hm (by simp)
  | true => rw [hL] at hm; exact hm

/-- The order of the statements makes no difference to what is in `sys.modules` in the end. -/
theorem C110_order_irrelevant (cfg : Cfg) (h : cfg.pyDes = .package) (us vs : List User) (hp : us.Perm vs) (m : M) :
    get (modulesAfter cfg us) m = get (modulesAfter cfg vs) m := by
  have hfoot : ∀ {us vs : List User}, us.Perm vs → ∀ q, mem (foots us) q = mem (foots vs) q := by
    intro us vs hp q
    induction hp with
    | nil => rfl
    | cons u _ ih => simp only [foots, mem_or, ih]
    | swap u v l => simp only [foots, mem_or]; cases mem (foot u) q <;> cases mem (foot v) q <;> rfl
    | trans _ _ ih1 ih2 => rw [ih1, ih2]
  obtain ⟨A, hA, hAe⟩ := session_run cfg us (Good.nil cfg.pyDes)
  obtain ⟨B, hB, hBe⟩ := session_run cfg vs (Good.nil cfg.pyDes)
  have h1 := hA.good.entries m
  have h2 := hB.good.entries m
  unfold modulesAfter
  simp only at h1 h2
  rw [h1, h2]
  refine canon_congr ?_
  rw [hAe h m, hBe h m, mem_or, mem_or, hfoot hp m]

/-- Without pyDes, or with pyDes installed as one module (as its setup.py and PyPI do): everything outside pythoncard.security and
pythoncardx.crypto can be imported still, at any time; in there nothing can, at any time, except that three modules stay behind half-attached
after the first attempt and can be imported then. -/
theorem C110_without_pyDes (cfg : Cfg) (h : cfg.pyDes ≠ .package) (us : List User) (m : M) (hm : m ≠ .pyDes ∧ m ≠ .pyDes_pyDes) :
    (m ∉ crypto → gives cfg us (.imp m) = .ok [.mod (top m)]) ∧
    (m ∈ crypto → m ∉ leftovers → gives cfg us (.imp m) = .error (lacking cfg.pyDes)) ∧
    (m ∈ leftovers → gives cfg [] (.imp m) = .error (lacking cfg.pyDes)) ∧
    (m ∈ leftovers → (∃ q ∈ crypto, User.imp q ∈ us) → gives cfg us (.imp m) = .ok [.mod (top m)]) := by
  obtain ⟨A, hA, -⟩ := session_run cfg us (Good.nil cfg.pyDes)
  have hG : Good cfg.pyDes (0 ||| A) (modulesAfter cfg us) := hA.good
  have key : ∀ {L : Nat} {s : Sys}, Good cfg.pyDes L s → (step cfg (.imp m) s).1 =
      (if mem L m then .ok () else res0 cfg.pyDes m : Except E Unit).map fun _ => [.mod (top m)] := by
    intro L s hG
    unfold step
    simp only
    rw [(load_good cfg (check_all cfg) m hG).res]
  have hin : ∀ q, needsDES q = decide (q ∈ crypto) := by intro q; cases q <;> decide
  have hres : res0 cfg.pyDes m = if m ∈ crypto then .error (lacking cfg.pyDes) else .ok () := by
    obtain ⟨l, b⟩ := cfg
    cases l with
    | package => exact absurd rfl h
    | single =>
      simp only [res0, hin, decide_eq_true_eq, hm.2, if_false]; rfl
    | absent =>
      simp only [res0, hin, decide_eq_true_eq, hm.1, hm.2, or_false]; rfl
  have hself : ∀ q ∈ crypto, mem (after cfg.pyDes q) q = true → q ∈ leftovers := by
    intro q hq
    revert h hq
    generalize cfg.pyDes = l
    intro h
    cases l with
    | package => exact absurd rfl h
    | single => cases q <;> decide
    | absent => cases q <;> decide
  refine ⟨fun hc => ?_, fun hc hl => ?_, fun hl => ?_, fun hl hq => ?_⟩
  · unfold gives; rw [key hG, hres, if_neg hc, ite_self]; rfl
  · have hno : mem (0 ||| A) m = false := by
      cases hmL : mem (0 ||| A) m with
      | false => rfl
      | true => exact absurd (hself m hc (hG.closed m hmL).1) hl
    unfold gives; rw [key hG, hno, hres, if_pos hc]; rfl
  · have hc : m ∈ crypto := by revert hl; cases m <;> decide
    show (step cfg (.imp m) []).1 = _
    have h0 : mem 0 m = false := by simp [mem]
    rw [key (Good.nil cfg.pyDes), h0, hres, if_pos hc]; rfl
  · have hmL : mem (0 ||| A) m = true := by
      obtain ⟨q, hq, hu⟩ := hq
      have hqa : mem (after cfg.pyDes q) m = true := by
        obtain ⟨l, b⟩ := cfg
        have hall : ∀ l, l ≠ Layout.package → (crypto.all fun q => leftovers.all fun m => mem (after l q) m) = true := by
          intro l hl'; cases l with
          | package => exact absurd rfl hl'
          | single => decide
          | absent => decide
        exact List.all_eq_true.1 (List.all_eq_true.1 (hall l h) q hq) m hl
      have hsess : ∀ (us : List User) {L : Nat} {s : Sys}, Good cfg.pyDes L s → User.imp q ∈ us →
          (get (session cfg us s).1 m).isSome = true := by
        intro us
        induction us with
        | nil => intro _ _ _ hx; exact absurd hx (by simp)
        | cons u us ih =>
          intro L s hG hx
          obtain ⟨B, hB, -⟩ := step_run cfg u hG
          rcases List.mem_cons.1 hx with rfl | hx
          · have hr := (Run.load cfg q hG).good
            obtain ⟨C, hC, -⟩ := session_run cfg us (L := L ||| after cfg.pyDes q) (s := (step cfg (.imp q) s).2.1) hr
            have := hC.good.entries m
            simp only at this
            show (get (session cfg us (step cfg (.imp q) s).2.1).1 m).isSome = true
            rw [this, isSome_canon, mem_or, mem_or, hqa]; simp
          · exact ih hB.good hx
      have h1 := hsess us (Good.nil cfg.pyDes) hu
      have h2 := hG.entries m
      unfold modulesAfter at h2
      rw [h2, isSome_canon] at h1
      exact h1
    unfold gives; rw [key hG, hmL]; rfl

/-! ### C111 -/

/-- The global names that functions read: in every session, in every module that is there, each is bound to what the files say it is, except
those listed, which are not bound at all: calling a function that gets as far as reading one raises NameError. -/
theorem C111_globals (cfg : Cfg) (us : List User) (P : M) (hP : (get (modulesAfter cfg us) P).isSome) (x : Id) (hx : x ∈ readByFunctions P) :
    ((P, x) ∉ undefinedNames → ∃ v, getattr (modulesAfter cfg us) P x = some v ∧ Origin P x v) ∧
    ((P, x) ∈ undefinedNames → getattr (modulesAfter cfg us) P x = none ∧ ∀ v, ¬ Origin P x v) := by
  obtain ⟨L, hG⟩ := session_good cfg us
  have hPL : mem L P = true := by rw [← isSome_canon cfg.pyDes L P, ← hG.entries]; exact hP
  have hga := getattr_good hG hPL x
  have hno : P ≠ .pyDes := by rintro rfl; exact absurd hx (by simp [readByFunctions])
  have hns : (cell0 cfg.pyDes P).ns = nsTbl P := by
    unfold cell0
    cases cfg.pyDes <;> simp [hno]
  rw [hns] at hga
  have hall : (M.all.all fun P => (readByFunctions P).all fun x =>
      if (P, x) ∈ undefinedNames then decide ((nsTbl P).lookup x = none) && decide (child P x = none) else ((nsTbl P).lookup x).isSome) = true := by
    decide +kernel
  have h1 := List.all_eq_true.1 (List.all_eq_true.1 hall P (M.mem_all P)) x hx
  refine ⟨fun hu => ?_, fun hu => ?_⟩
  · rw [if_neg hu] at h1
    obtain ⟨v, hv⟩ := Option.isSome_iff_exists.1 h1
    refine ⟨v, ?_, origin_of_ns hv⟩
    unfold modulesAfter
    rw [hga, hv]
  · rw [if_pos hu] at h1
    simp only [Bool.and_eq_true, decide_eq_true_eq] at h1
    refine ⟨?_, fun v hv => ?_⟩
    · unfold modulesAfter
      rw [hga, h1.1]
      simp only [h1.2]
    · have := val_of_origin hv
      unfold valOf at this
      rw [h1.1, h1.2] at this
      exact absurd this (by simp)

/-! ### Examples -/

/-- A session: a submodule in the middle of a circle first, something that does not exist, the package afterwards. -/
def aSession : List User := [.imp .pythoncard_security_keypair, .from_ .pythoncard_framework [.AID, .pyDes], .impMissing .pythoncardx, .imp .pythoncard_framework]

example : gives ⟨.package, false⟩ aSession (.imp .pythoncardx_crypto) = .ok [.mod .pythoncardx] := C110_any_order _ rfl _ _

/-- `from pythoncard.framework import AID, Util, ISO7816`. -/
example : gives ⟨.package, false⟩ aSession (.from_ .pythoncard_framework [.AID, .Util, .ISO7816]) =
    .ok [.obj .pythoncard_framework_aid .AID, .mod .pythoncard_framework_util, .mod .pythoncard_framework_ISO7816] :=
  (C110_values _ rfl _ _ _ _).2 (.cons (origin_of_val (by decide)) (.cons (origin_of_val (by decide)) (.cons (origin_of_val (by decide)) .nil)))

/-- KeyBuilder's DES keys and the cipher's test `isinstance(key, pyDesDESKey)` are about the same class. -/
example (us : List User) : gives ⟨.package, true⟩ us (.from_ .pythoncardx_crypto_cipher [.pyDesDESKey]) =
    gives ⟨.package, true⟩ us (.from_ .pythoncard_security_secretkey [.pyDesDESKey]) := by
  have h (P : M) (hP : Origin P .pyDesDESKey (.obj .pythoncard_security_secretkey .pyDesDESKey)) :=
    (C110_values ⟨.package, true⟩ rfl us P [.pyDesDESKey] [.obj .pythoncard_security_secretkey .pyDesDESKey]).2 (.cons hP .nil)
  rw [h _ (origin_of_val (by decide)), h _ (origin_of_val (by decide))]

example : gives ⟨.package, true⟩ aSession (.from_ .pythoncard_framework [.AID, .KeyPair]) = .error .importError :=
  (C110_missing _ rfl _ _).2 _ .KeyPair (by decide) fun v hv => by
    have := val_of_origin hv
    exact absurd this (by rw [show valOf .pythoncard_framework .KeyPair = none by decide]; simp)

/-- pyDes from PyPI: `import pythoncard.security` fails, `import pythoncard.security.key` succeeds afterwards. -/
example : gives ⟨.single, true⟩ [] (.imp .pythoncard_security) = .error .importError ∧
    gives ⟨.single, true⟩ [] (.imp .pythoncard_security_key) = .error .importError ∧
    gives ⟨.single, true⟩ [.imp .pythoncard_security] (.imp .pythoncard_security_key) = .ok [.mod .pythoncard] :=
  ⟨(C110_without_pyDes _ (by decide) _ _ (by decide)).2.1 (by decide) (by decide),
    (C110_without_pyDes _ (by decide) [] _ (by decide)).2.2.1 (by decide),
    (C110_without_pyDes _ (by decide) _ _ (by decide)).2.2.2 (by decide) ⟨.pythoncard_security, by decide, by simp⟩⟩

example : ∃ us, (get (modulesAfter ⟨.package, true⟩ us) .pythoncard_framework_aid).isSome ∧ (.aidOfset : Id) ∈ readByFunctions .pythoncard_framework_aid :=
  ⟨[.imp .pythoncard_framework_aid], by decide +kernel, by decide⟩

end Verif.Props
