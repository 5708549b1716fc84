import Verif.Props.CipherAny
import Verif.Props.RSAAny
import Verif.Props.KeyPairs
import Verif.Props.Applets
import Verif.Model.CryptoWorld
/-! C108: what keys, key pairs, ciphers, digests and the caller's arrays share, for programs of any calls in any order. -/
namespace Verif.Props
open Verif.Py Verif.Model Verif.Model.PyDes Verif.Spec Verif.Spec.DES

namespace CW
open CryptoWorld

/-! ### Specification -/

/-- The array a call writes. -/
def arrayOf : Step → Option Nat
  | .getKey _ r _ | .getRSA _ _ r _ | .desFinal _ _ _ _ r _ | .rsaFinal _ _ _ _ _ r _ | .digestFinal _ _ _ _ r _ | .random _ r _ _ | .write r _ => some r
  | _ => none

/-- The key object a call changes. -/
def keyOf : Step → Option Nat
  | .setKey k _ _ | .rsaKey k _ _ _ _ | .setTheKey k _ => some k
  | _ => none

/-- The key pair a call changes. -/
def pairOf : Step → Option Nat
  | .genKeyPair p _ => some p
  | _ => none

/-- The DES cipher a call changes. -/
def desOf : Step → Option Nat
  | .desInit c _ _ _ _ _ | .desInitDefault c _ _ | .desFinal c _ _ _ _ _ => some c
  | _ => none

/-- The DES cipher a call initialises. -/
def desInitOf : Step → Option Nat
  | .desInit c _ _ _ _ _ | .desInitDefault c _ _ => some c
  | _ => none

/-- The RSA cipher a call initialises. -/
def rsaInitOf : Step → Option Nat
  | .rsaInit c _ _ => some c
  | _ => none

/-- The digest a call changes. -/
def digestOf : Step → Option Nat
  | .digestUpdate d _ _ _ | .digestFinal d _ _ _ _ _ | .digestReset d => some d
  | _ => none

/-! ### The frame -/

/-- What a step leaves alone. -/
structure Frame (w w' : CryptoWorld) (s : Step) : Prop where
  arrays : ∀ r, arrayOf s ≠ some r → w'.arrays r = w.arrays r
  keys : ∀ k x, keyOf s ≠ some k → w.keys[k]? = some x → w'.keys[k]? = some x
  pairs : ∀ p x, pairOf s ≠ some p → w.pairs[p]? = some x → w'.pairs[p]? = some x
  des : ∀ c x, desOf s ≠ some c → w.des[c]? = some x → w'.des[c]? = some x
  rsa : ∀ c x, rsaInitOf s ≠ some c → w.rsa[c]? = some x → w'.rsa[c]? = some x
  digests : ∀ d x, digestOf s ≠ some d → w.digests[d]? = some x → w'.digests[d]? = some x

theorem frame_refl (w : CryptoWorld) (s : Step) : Frame w w s := ⟨fun _ _ => rfl, fun _ _ _ h => h, fun _ _ _ h => h, fun _ _ _ h => h, fun _ _ _ h => h, fun _ _ _ h => h⟩

theorem app_old {α} (l m : List α) (i : Nat) (x : α) (h : l[i]? = some x) : (l ++ m)[i]? = some x := by
  rw [List.getElem?_append_left (lt_of_getElem? h)]; exact h

theorem set_other {α} (l : List α) (j i : Nat) (y x : α) (hn : some j ≠ some i) (h : l[i]? = some x) : (l.set j y)[i]? = some x := by
  rw [List.getElem?_set_ne (fun e => hn (by rw [e]))]; exact h

theorem arr_other (w : CryptoWorld) (r : Nat) (l : List Int) (q : Nat) (h : some r ≠ some q) : (w.setArray r l).arrays q = w.arrays q := by
  show (if q = r then l else w.arrays q) = _
  rw [if_neg (fun e => h (by rw [e]))]

theorem step_frame (env : CryptoEnv) (w w' : CryptoWorld) (s : Step) (o : Except Err CryptoWorld.Out) (h : w.step env s = some (o, w')) : Frame w w' s := by
  have hr := frame_refl w s
  cases s <;> simp only [CryptoWorld.step] at h
  case rsaFinal c rnd r off len r' off' =>
    split at h
    · injection h with h; injection h with _ h; subst h; exact hr
    · next x _ =>
      cases hd : x.doFinal w.heap env.ops env.longSuffix rnd (w.arrays r) off len (w.arrays r') off' with
      | none => rw [hd] at h; cases h
      | some res =>
        rw [hd] at h
        injection h with h; injection h with _ h; subst h
        exact { hr with arrays := fun q hq => arr_other _ _ _ _ hq }
  case genKeyPair p t =>
    split at h
    · injection h with h; injection h with _ h; subst h; exact hr
    · next q _ =>
      injection h with h
      unfold CryptoWorld.gen at h
      repeat' split at h
      all_goals (injection h with _ h; subst h)
      all_goals first
        | exact hr
        | exact { hr with keys := fun k x _ hk => app_old _ _ _ _ hk, pairs := fun i x hi hx => set_other _ _ _ _ _ hi hx }
  all_goals
    repeat' split at h
  all_goals (injection h with h; injection h with _ h; subst h)
  all_goals first
    | exact hr
    | exact { hr with arrays := fun q hq => arr_other _ _ _ _ hq }
    | exact { hr with keys := fun k x _ hk => app_old _ _ _ _ hk }
    | exact { hr with keys := fun k x hi hk => set_other _ _ _ _ _ hi hk }
    | exact { hr with pairs := fun k x _ hk => app_old _ _ _ _ hk }
    | exact { hr with keys := fun k x _ hk => app_old _ _ _ _ hk, pairs := fun k x _ hk => app_old _ _ _ _ hk }
    | exact { hr with des := fun k x _ hk => app_old _ _ _ _ hk }
    | exact { hr with rsa := fun k x _ hk => app_old _ _ _ _ hk }
    | exact { hr with digests := fun k x _ hk => app_old _ _ _ _ hk }
    | exact { hr with des := fun k x hi hk => set_other _ _ _ _ _ hi hk }
    | exact { hr with rsa := fun k x hi hk => set_other _ _ _ _ _ hi hk }
    | exact { hr with digests := fun k x hi hk => set_other _ _ _ _ _ hi hk }
    | exact { hr with arrays := fun q hq => arr_other _ _ _ _ hq, des := fun k x hi hk => set_other _ _ _ _ _ hi hk }
    | exact { hr with arrays := fun q hq => arr_other _ _ _ _ hq, digests := fun k x hi hk => set_other _ _ _ _ _ hi hk }

theorem run_append (env : CryptoEnv) (w : CryptoWorld) (P Q : List Step) : w.run env (P ++ Q) = (w.run env P).bind fun w' => w'.run env Q := by
  induction P generalizing w with
  | nil => rfl
  | cons s P ih =>
    simp only [List.cons_append, CryptoWorld.run]
    cases w.step env s with
    | none => rfl
    | some r => exact ih r.2

theorem run_cons {env : CryptoEnv} {w w' : CryptoWorld} {s : Step} {P : List Step} (h : w.run env (s :: P) = some w') :
    ∃ o w1, w.step env s = some (o, w1) ∧ w1.run env P = some w' := by
  unfold CryptoWorld.run at h
  cases hs : w.step env s with
  | none => rw [hs] at h; cases h
  | some r => rw [hs] at h; exact ⟨r.1, r.2, rfl, h⟩

/-- C108. A program changes nothing but what its calls name: an array no call writes keeps its cells, a key object no `setKey`, `setExponent`,
`setModulus` or `setTheKey` names keeps its value, a pair not generated its keys, a cipher or digest without calls its state. -/
theorem C108_frame (env : CryptoEnv) (w w' : CryptoWorld) (P : List Step) (h : w.run env P = some w') :
    (∀ r, (∀ s ∈ P, arrayOf s ≠ some r) → w'.arrays r = w.arrays r) ∧
    (∀ k x, (∀ s ∈ P, keyOf s ≠ some k) → w.keys[k]? = some x → w'.keys[k]? = some x) ∧
    (∀ p x, (∀ s ∈ P, pairOf s ≠ some p) → w.pairs[p]? = some x → w'.pairs[p]? = some x) ∧
    (∀ c x, (∀ s ∈ P, desOf s ≠ some c) → w.des[c]? = some x → w'.des[c]? = some x) ∧
    (∀ c x, (∀ s ∈ P, rsaInitOf s ≠ some c) → w.rsa[c]? = some x → w'.rsa[c]? = some x) ∧
    (∀ d x, (∀ s ∈ P, digestOf s ≠ some d) → w.digests[d]? = some x → w'.digests[d]? = some x) := by
  induction P generalizing w with
  | nil =>
    injection h with h
    subst h
    exact ⟨fun _ _ => rfl, fun _ _ _ h => h, fun _ _ _ h => h, fun _ _ _ h => h, fun _ _ _ h => h, fun _ _ _ h => h⟩
  | cons s P ih =>
    obtain ⟨o, w1, h1, h2⟩ := run_cons h
    have f := step_frame env w w1 s o h1
    obtain ⟨i1, i2, i3, i4, i5, i6⟩ := ih w1 h2
    refine ⟨fun r hr => ?_, fun k x hn hx => ?_, fun k x hn hx => ?_, fun k x hn hx => ?_, fun k x hn hx => ?_, fun k x hn hx => ?_⟩
    · rw [i1 r (fun s hs => hr s (by simp [hs])), f.arrays r (hr s (by simp))]
    · exact i2 k x (fun s hs => hn s (by simp [hs])) (f.keys k x (hn s (by simp)) hx)
    · exact i3 k x (fun s hs => hn s (by simp [hs])) (f.pairs k x (hn s (by simp)) hx)
    · exact i4 k x (fun s hs => hn s (by simp [hs])) (f.des k x (hn s (by simp)) hx)
    · exact i5 k x (fun s hs => hn s (by simp [hs])) (f.rsa k x (hn s (by simp)) hx)
    · exact i6 k x (fun s hs => hn s (by simp [hs])) (f.digests k x (hn s (by simp)) hx)

/-! ### DES ciphers -/

/-- The calls a step makes on the DES cipher `c`, with the keys and arrays of that moment. -/
def callsOn (w : CryptoWorld) (c : Nat) : Step → List DCall
  | .desInit c' k mode r off len => if c' = c then [.init w.heap (w.keyArg k) mode (w.arrays r) off len] else []
  | .desInitDefault c' k mode => if c' = c then [.initDefault w.heap (w.keyArg k) mode] else []
  | .desFinal c' r off len r' off' => if c' = c then [.doFinal (w.arrays r) off len (w.arrays r') off'] else []
  | _ => []

theorem desAfter_append (alg : Int) (h g : List DCall) : desAfter alg (h ++ g) = g.foldl DCall.step (desAfter alg h) := by
  unfold desAfter; rw [List.foldl_append]

theorem step_des (env : CryptoEnv) (w w' : CryptoWorld) (s : Step) (o : Except Err CryptoWorld.Out) (hs : w.step env s = some (o, w')) (c : Nat) (alg : Int)
    (h : List DCall) (hc : w.des[c]? = some (desAfter alg h)) : w'.des[c]? = some (desAfter alg (h ++ callsOn w c s)) := by
  have hf := (step_frame env w w' s o hs).des c (desAfter alg h)
  have hlt := lt_of_getElem? hc
  by_cases hd : desOf s = some c
  · rw [desAfter_append]
    cases s <;> simp only [desOf, Option.some.injEq, reduceCtorEq] at hd
    all_goals
      subst hd
      simp only [CryptoWorld.step, hc] at hs
      injection hs with hs; injection hs with _ hs; subst hs
      simp only [callsOn, if_true, List.foldl_cons, List.foldl_nil, DCall.step]
      exact List.getElem?_set_self hlt
  · rw [hf hd hc]
    have : callsOn w c s = [] := by
      cases s <;> simp only [callsOn] <;> simp only [desOf, Option.some.injEq] at hd <;> rw [if_neg hd]
    rw [this, List.append_nil]

theorem noInit_calls (w : CryptoWorld) (c : Nat) (s : Step) (hn : desInitOf s ≠ some c) (h : List DCall) :
    modeAfter (h ++ callsOn w c s) = modeAfter h ∧ keyAfter (h ++ callsOn w c s) = keyAfter h := by
  cases s <;> simp only [callsOn, List.append_nil, and_self] <;> simp only [desInitOf, ne_eq, Option.some.injEq, reduceCtorEq, not_false_eq_true] at hn
  · rw [if_neg hn, List.append_nil]; exact ⟨rfl, rfl⟩
  · rw [if_neg hn, List.append_nil]; exact ⟨rfl, rfl⟩
  · split
    · unfold modeAfter keyAfter; rw [getLast_snoc, getLast_snoc]; exact ⟨rfl, rfl⟩
    · rw [List.append_nil]; exact ⟨rfl, rfl⟩

theorem run_des (env : CryptoEnv) (w w' : CryptoWorld) (P : List Step) (h : w.run env P = some w') (c : Nat) (alg : Int) (g : List DCall)
    (hc : w.des[c]? = some (desAfter alg g)) :
    ∃ g', w'.des[c]? = some (desAfter alg g') ∧ ((∀ s ∈ P, desInitOf s ≠ some c) → modeAfter g' = modeAfter g ∧ keyAfter g' = keyAfter g) := by
  induction P generalizing w g with
  | nil => injection h with h; subst h; exact ⟨g, hc, fun _ => ⟨rfl, rfl⟩⟩
  | cons s P ih =>
    obtain ⟨o, w1, h1, h2⟩ := run_cons h
    obtain ⟨g', a, b⟩ := ih w1 h2 _ (step_des env w w1 s o h1 c alg g hc)
    refine ⟨g', a, fun hn => ?_⟩
    have h3 := b (fun s hs => hn s (by simp [hs]))
    have h4 := noInit_calls w c s (hn s (by simp)) g
    exact ⟨h3.1.trans h4.1, h3.2.trans h4.2⟩

/-- In a world made by a program, every DES cipher has one of the four algorithms and its state is that of a history of calls. -/
structure Sound (w : CryptoWorld) : Prop where
  des : ∀ (c : Nat) x, w.des[c]? = some x → ∃ alg g, (alg = 1 ∨ alg = 4 ∨ alg = 5 ∨ alg = 8) ∧ x = desAfter alg g
  rsa : ∀ (c : Nat) x, w.rsa[c]? = some x → ∃ alg g, (alg = 10 ∨ alg = 12) ∧ x = rsaInits (RSACipher.new alg) g

theorem init_alg (c : DESCipher) (heap : KeyHeap) (k : KeyArg) (m : Int) (b : List Int) (o l : Int) : (c.init heap k m b o l).2.base.algorithm = c.base.algorithm := by
  have hb : (c.base.init heap k m).2.algorithm = c.base.algorithm := by
    unfold CipherBase.init
    repeat' split
    all_goals rfl
  unfold DESCipher.init
  split
  · next h => rw [h] at hb; exact hb
  · next h =>
    rw [h] at hb
    simp only
    repeat' split
    all_goals exact hb

theorem final_alg (c : DESCipher) (inB : List Int) (io il : Int) (outB : List Int) (oo : Int) : (c.doFinal inB io il outB oo).2.2.base = c.base := by
  unfold DESCipher.doFinal
  repeat' (first | split | rfl | (simp only; split))

theorem desAfter_alg (alg : Int) (h : List DCall) : (desAfter alg h).base.algorithm = alg := by
  induction h using snoc_induction with
  | h0 => rfl
  | h1 l x ih =>
    rw [desAfter_append]
    simp only [List.foldl_cons, List.foldl_nil]
    cases x with
    | init heap k m b o n => exact (init_alg _ heap k m b o n).trans ih
    | initDefault heap k m => exact (init_alg _ heap k m _ _ _).trans ih
    | doFinal inB io il outB oo => exact (congrArg _ (final_alg _ inB io il outB oo)).trans ih
    | update => exact ih

theorem getCipher_alg (args : List Int) (k : CipherKind) (b : CipherBase) (h : cipherGetInstance args = .ok (k, b)) :
    (k = .des → b.algorithm = 1 ∨ b.algorithm = 4 ∨ b.algorithm = 5 ∨ b.algorithm = 8) ∧ (k = .rsa → b.algorithm = 10 ∨ b.algorithm = 12) := by
  have key : ∀ a, selectCipher a = .ok (k, b) → (k = .des → b.algorithm = 1 ∨ b.algorithm = 4 ∨ b.algorithm = 5 ∨ b.algorithm = 8) ∧
      (k = .rsa → b.algorithm = 10 ∨ b.algorithm = 12) := by
    intro a h
    unfold selectCipher at h
    split at h
    · cases h
    · split at h
      · next ha =>
        injection h with h; injection h with h1 h2; subst h1 h2
        exact ⟨(fun h => nomatch h), fun _ => by show _ ∨ _; simp only [CipherBase.new]; omega⟩
      · split at h
        · next ha =>
          injection h with h; injection h with h1 h2; subst h1 h2
          exact ⟨fun _ => by simp only [CipherBase.new]; omega, (fun h => nomatch h)⟩
        · cases h
  unfold cipherGetInstance at h
  repeat' split at h
  · exact key _ h
  · cases h
  · exact key _ h
  · cases h

theorem sound_step (env : CryptoEnv) (w w' : CryptoWorld) (s : Step) (o : Except Err CryptoWorld.Out) (hs : w.step env s = some (o, w')) (hw : Sound w) : Sound w' := by
  have fr := step_frame env w w' s o hs
  constructor
  · intro c x hx
    rcases Nat.lt_or_ge c w.des.length with hc | hc
    · obtain ⟨alg, g, ha, hg⟩ := hw.des c w.des[c] (List.getElem?_eq_getElem hc)
      have := step_des env w w' s o hs c alg g (by rw [← hg]; exact List.getElem?_eq_getElem hc)
      rw [hx] at this
      injection this with this
      exact ⟨alg, _, ha, this⟩
    · cases s
      case getCipher args =>
        simp only [CryptoWorld.step] at hs
        split at hs
        · injection hs with hs; injection hs with _ hs; subst hs
          rw [List.getElem?_eq_none hc] at hx; cases hx
        · next b hb =>
          injection hs with hs; injection hs with _ hs; subst hs
          rw [List.getElem?_append_right hc] at hx
          have hx' : x = DESCipher.new b.algorithm := by
            cases hi : c - w.des.length with
            | zero => rw [hi] at hx; injection hx with hx; exact hx.symm
            | succ n => rw [hi] at hx; cases hx
          exact ⟨b.algorithm, [], (getCipher_alg args _ b hb).1 rfl, hx'⟩
        · injection hs with hs; injection hs with _ hs; subst hs
          rw [List.getElem?_eq_none hc] at hx; cases hx
      all_goals
        exfalso
        have hl : w'.des.length = w.des.length := by
          simp only [CryptoWorld.step, CryptoWorld.gen] at hs
          repeat' split at hs
          all_goals first
            | (injection hs with hs; injection hs with _ hs; subst hs; simp [CryptoWorld.setArray])
            | (obtain ⟨res, _, hs⟩ := Option.map_eq_some_iff.1 hs; injection hs with _ hs; subst hs; rfl)
        rw [List.getElem?_eq_none (by omega)] at hx; cases hx
  · intro c x hx
    rcases Nat.lt_or_ge c w.rsa.length with hc | hc
    · obtain ⟨alg, g, ha, hg⟩ := hw.rsa c w.rsa[c] (List.getElem?_eq_getElem hc)
      by_cases hi : rsaInitOf s = some c
      · cases s <;> simp only [rsaInitOf, Option.some.injEq, reduceCtorEq] at hi
        case rsaInit c' k m =>
          subst hi
          simp only [CryptoWorld.step, List.getElem?_eq_getElem hc] at hs
          injection hs with hs; injection hs with _ hs; subst hs
          simp only [List.getElem?_set_self hc, Option.some.injEq] at hx
          refine ⟨alg, g ++ [⟨w.heap, w.keyArg k, m⟩], ha, ?_⟩
          rw [← hx, hg]
          unfold rsaInits
          rw [List.foldl_append]
          rfl
      · have := fr.rsa c _ hi (List.getElem?_eq_getElem hc)
        rw [hx] at this
        injection this with this
        exact ⟨alg, g, ha, this.trans hg⟩
    · cases s
      case getCipher args =>
        simp only [CryptoWorld.step] at hs
        split at hs
        · injection hs with hs; injection hs with _ hs; subst hs
          rw [List.getElem?_eq_none hc] at hx; cases hx
        · injection hs with hs; injection hs with _ hs; subst hs
          rw [List.getElem?_eq_none hc] at hx; cases hx
        · next b hb =>
          injection hs with hs; injection hs with _ hs; subst hs
          rw [List.getElem?_append_right hc] at hx
          have hx' : x = RSACipher.new b.algorithm := by
            cases hi : c - w.rsa.length with
            | zero => rw [hi] at hx; injection hx with hx; exact hx.symm
            | succ n => rw [hi] at hx; cases hx
          exact ⟨b.algorithm, [], (getCipher_alg args _ b hb).2 rfl, hx'⟩
      all_goals
        exfalso
        have hl : w'.rsa.length = w.rsa.length := by
          simp only [CryptoWorld.step, CryptoWorld.gen] at hs
          repeat' split at hs
          all_goals first
            | (injection hs with hs; injection hs with _ hs; subst hs; simp [CryptoWorld.setArray])
            | (obtain ⟨res, _, hs⟩ := Option.map_eq_some_iff.1 hs; injection hs with _ hs; subst hs; rfl)
        rw [List.getElem?_eq_none (by omega)] at hx; cases hx

theorem sound_run (env : CryptoEnv) (w w' : CryptoWorld) (P : List Step) (h : w.run env P = some w') (hw : Sound w) : Sound w' := by
  induction P generalizing w with
  | nil => injection h with h; subst h; exact hw
  | cons s P ih =>
    obtain ⟨o, w1, h1, h2⟩ := run_cons h
    exact ih w1 h2 (sound_step env w w1 s o h1 hw)

theorem sound_start (arrays : Nat → List Int) : Sound (start arrays) := ⟨fun _ _ h => by simp [start] at h, fun _ _ h => by simp [start] at h⟩

/-- Specification: at some moment of the program that led to `w`, the DES cipher `c`, an object for the algorithm `alg`, was initialised for `mode`
with a key object that held the bytes `key` at that moment and an initial vector whose bytes were `iv` at that moment, and no `init` on `c` was
called since. What happened meanwhile to the key object, to the arrays and to any other object is left open. -/
def SetUp (env : CryptoEnv) (w : CryptoWorld) (c : Nat) (alg mode : Int) (key iv : List Nat) : Prop :=
  ∃ arrays P0 w0 s w1 P1 k d x, (start arrays).run env P0 = some w0 ∧ w0.step env s = some (.ok .nothing, w1) ∧ w1.run env P1 = some w ∧
    (∀ t ∈ P1, desInitOf t ≠ some c) ∧ w0.des[c]? = some x ∧ x.base.algorithm = alg ∧ w0.keys[k]? = some (.des d) ∧ d.key = some key ∧
    ((∃ r off, s = .desInit c (some k) mode r off 8 ∧ iv = (cellsFrom (w0.arrays r) off 8).map valueOf) ∨
     (s = .desInitDefault c (some k) mode ∧ iv = List.replicate 8 0))

theorem SetUp.later {env : CryptoEnv} {w w' : CryptoWorld} {c : Nat} {alg mode : Int} {key iv : List Nat} (h : SetUp env w c alg mode key iv) (P : List Step)
    (hP : w.run env P = some w') (hn : ∀ t ∈ P, desInitOf t ≠ some c) : SetUp env w' c alg mode key iv := by
  obtain ⟨arrays, P0, w0, s, w1, P1, k, d, x, h1, h2, h3, h4, h5⟩ := h
  refine ⟨arrays, P0, w0, s, w1, P1 ++ P, k, d, x, h1, h2, ?_, ?_, h5⟩
  · rw [run_append, h3]; exact hP
  · intro t ht
    rcases List.mem_append.1 ht with ht | ht
    · exact h4 t ht
    · exact hn t ht

theorem heap_get (w : CryptoWorld) (k : Nat) (x : KeyObj) (h : w.keys[k]? = some x) : w.heap k = x := by
  unfold CryptoWorld.heap; rw [h]; rfl

theorem keyArg_get (w : CryptoWorld) (k : Nat) (x : KeyObj) (h : w.keys[k]? = some x) : w.keyArg (some k) = .key k := by
  unfold CryptoWorld.keyArg; exact if_pos (lt_of_getElem? h)

theorem map_ok {ε α β} {x : Except ε α} {f : α → β} {y : β} (h : x.map f = .ok y) : ∃ a, x = .ok a := by
  cases x with
  | error e => cases h
  | ok a => exact ⟨a, rfl⟩

/-- A cipher set up is in the state of a history whose last mode and key are those it was set up with. -/
theorem setUp_state (env : CryptoEnv) (w : CryptoWorld) (c : Nat) (alg mode : Int) (key iv : List Nat) (h : SetUp env w c alg mode key iv) :
    (alg = 1 ∨ alg = 4 ∨ alg = 5 ∨ alg = 8) ∧ ∃ g, w.des[c]? = some (desAfter alg g) ∧ modeAfter g = some mode ∧ keyAfter g = some (key, iv) := by
  obtain ⟨arrays, P0, w0, s, w1, P1, k, d, x, h1, h2, h3, h4, h5, h6, h7, h8, h9⟩ := h
  obtain ⟨alg', g, ha, hg⟩ := (sound_run env _ _ _ h1 (sound_start arrays)).des c x h5
  have : alg' = alg := by rw [← h6, hg, desAfter_alg]
  subst this
  refine ⟨ha, ?_⟩
  rw [hg] at h5
  have st := step_des env w0 w1 s _ h2 c _ g h5
  obtain ⟨g', r1, r2⟩ := run_des env w1 w P1 h3 c _ _ st
  obtain ⟨r3, r4⟩ := r2 h4
  refine ⟨g', r1, ?_, ?_⟩
  all_goals
    first | rw [r3] | rw [r4]
    rcases h9 with ⟨r, off, hs, hiv⟩ | ⟨hs, hiv⟩
    all_goals
      subst hs
      simp only [CryptoWorld.step, h5] at h2
      injection h2 with h2
      injection h2 with h2 _
      obtain ⟨_, h2⟩ := map_ok h2
      rw [keyArg_get _ _ _ h7] at h2
      simp only [callsOn, if_true, keyArg_get _ _ _ h7]
  · obtain ⟨r', k', b, e1, e2, e3, e4, e5, e6, e7, e8⟩ := (C99_init alg' g _ _ _ _ _ _).1.1 h2
    injection e1 with e1
    subst e1
    unfold modeAfter
    rw [getLast_snoc]
    have : DCall.mode? (.init w0.heap (.key k) mode (w0.arrays r) off 8) = some mode := by
      simp only [DCall.mode?, acceptedMode]
      rw [if_pos ⟨by rw [e2]; exact e3, e6⟩]
    rw [this]; rfl
  · obtain ⟨r', k', b, e1, e2, e3, e4, e5, e6⟩ := (C99_init alg' g w0.heap (.key k) mode [] 0 0).2.1 h2
    injection e1 with e1
    subst e1
    unfold modeAfter
    rw [getLast_snoc]
    have : DCall.mode? (.initDefault w0.heap (.key k) mode) = some mode := by
      simp only [DCall.mode?, acceptedMode]
      rw [if_pos ⟨by rw [e2]; exact e3, e6⟩]
    rw [this]; rfl
  · obtain ⟨r', k', b, e1, e2, e3, e4, e5, e6, e7, e8⟩ := (C99_init alg' g _ _ _ _ _ _).1.1 h2
    injection e1 with e1
    subst e1
    rw [heap_get _ _ _ h7] at e2
    injection e2 with e2
    subst e2
    unfold keyAfter
    rw [getLast_snoc]
    have : DCall.key? (.init w0.heap (.key k) mode (w0.arrays r) off 8) = some (key, iv) := by
      simp only [DCall.key?, goodKey, heap_get _ _ _ h7, h8]
      rw [h8] at e4
      injection e4 with e4
      subst e4
      rw [if_pos ⟨e3, e6, trivial, e8, fun h => by rw [if_pos h] at e5; exact e5, fun h => by rw [if_neg h] at e5; exact e5⟩, hiv]
    rw [this]; rfl
  · obtain ⟨r', k', b, e1, e2, e3, e4, e5, e6⟩ := (C99_init alg' g w0.heap (.key k) mode [] 0 0).2.1 h2
    injection e1 with e1
    subst e1
    rw [heap_get _ _ _ h7] at e2
    injection e2 with e2
    subst e2
    unfold keyAfter
    rw [getLast_snoc]
    have : DCall.key? (.initDefault w0.heap (.key k) mode) = some (key, iv) := by
      simp only [DCall.key?, goodKey, heap_get _ _ _ h7, h8]
      rw [h8] at e4
      injection e4 with e4
      subst e4
      rw [if_pos ⟨e3, e6, trivial, by decide, fun h => by rw [if_pos h] at e5; exact e5, fun h => by rw [if_neg h] at e5; exact e5⟩, hiv]
      rfl
    rw [this]; rfl

theorem step_final (env : CryptoEnv) (w : CryptoWorld) (c : Nat) (x : DESCipher) (hx : w.des[c]? = some x) (r : Nat) (io il : Int) (r' : Nat) (oo : Int)
    (res : Except Err Int) (out : List Int) (c' : DESCipher) (h : x.doFinal (w.arrays r) io il (w.arrays r') oo = (res, out, c')) :
    ∃ w', w.step env (.desFinal c r io il r' oo) = some (res.map .int, w') ∧ w'.arrays r' = out := by
  refine ⟨{ w.setArray r' out with des := w.des.set c c' }, by simp only [CryptoWorld.step, hx, h], ?_⟩
  simp [CryptoWorld.setArray]

theorem encrypts_bytes (alg : Int) (halg : alg = 1 ∨ alg = 4 ∨ alg = 5 ∨ alg = 8) (key iv m ct : List Nat) (hiv : IsBlock iv) (h : Encrypts alg key iv m ct) :
    ∀ x ∈ ct, x < 256 := by
  obtain ⟨bs, b1, b2, b3⟩ := (encrypts_iff alg halg key iv m ct).1 h
  rw [b3]
  exact flatten_bytes _ (chained_blocks alg key iv hiv bs b1).1

/-- C108. Encryption in the midst of any program: the cipher works with the key bytes, the initial vector and the mode of its last `init`, whatever
happened since to the key object, to the arrays and to all other ciphers and keys; the array read may be the array written. -/
theorem C108_encrypt (env : CryptoEnv) (w : CryptoWorld) (c : Nat) (alg : Int) (key iv : List Nat) (hs : SetUp env w c alg 2 key iv)
    (rin : Nat) (io il : Int) (hin : il ≤ 0 ∨ Reachable (w.arrays rin).length io il.toNat) (hn : alg = 1 ∨ alg = 5 → il.toNat % 8 = 0) :
    ∃ ct, Encrypts alg key iv ((cellsFrom (w.arrays rin) io il.toNat).map valueOf) ct ∧
      ct.length = (if alg = 1 ∨ alg = 5 then il.toNat else (il.toNat / 8 + 1) * 8) ∧
      ∀ rout oo, (ct = [] ∨ Reachable (w.arrays rout).length oo ct.length →
          ∃ w', w.step env (.desFinal c rin io il rout oo) = some (.ok (.int ct.length), w') ∧
            Stored (w.arrays rout) (w'.arrays rout) oo ct.length (fun j => signedCell (ct.getD j 0))) ∧
        (¬ (ct = [] ∨ Reachable (w.arrays rout).length oo ct.length) →
          ∃ w', w.step env (.desFinal c rin io il rout oo) = some (.error .arrayIndexOutOfBounds, w')) := by
  obtain ⟨halg, g, g1, g2, g3⟩ := setUp_state env w c alg 2 key iv hs
  obtain ⟨ct, c1, c2, c3⟩ := C99_encrypt alg halg g key iv g2 g3 (w.arrays rin) io il hin hn
  refine ⟨ct, c1, c2, fun rout oo => ⟨fun hr => ?_, fun hr => ?_⟩⟩
  · obtain ⟨out, c', e1, e2⟩ := (c3 (w.arrays rout) oo).1 hr
    obtain ⟨w', e3, e4⟩ := step_final env w c _ g1 rin io il rout oo _ _ _ e1
    exact ⟨w', e3, by rw [e4]; exact e2⟩
  · have e := (c3 (w.arrays rout) oo).2 hr
    cases hd : (desAfter alg g).doFinal (w.arrays rin) io il (w.arrays rout) oo with
    | mk res oc =>
      obtain ⟨w', e3, _⟩ := step_final env w c _ g1 rin io il rout oo _ _ _ hd
      rw [hd] at e
      simp only at e
      rw [e] at e3
      exact ⟨w', e3⟩

/-- C108. Decryption in the midst of any program. -/
theorem C108_decrypt (env : CryptoEnv) (w : CryptoWorld) (c : Nat) (alg : Int) (key iv : List Nat) (hs : SetUp env w c alg 1 key iv)
    (m ct : List Nat) (hx : ∀ x ∈ m, x < 256) (he : Encrypts alg key iv m ct) (rin : Nat) (io il : Int)
    (hin : il ≤ 0 ∨ Reachable (w.arrays rin).length io il.toNat) (hct : (cellsFrom (w.arrays rin) io il.toNat).map valueOf = ct) (rout : Nat) (oo : Int) :
    (m = [] ∨ Reachable (w.arrays rout).length oo m.length →
      ∃ w', w.step env (.desFinal c rin io il rout oo) = some (.ok (.int m.length), w') ∧
        Stored (w.arrays rout) (w'.arrays rout) oo m.length (fun j => signedCell (m.getD j 0))) ∧
    (¬ (m = [] ∨ Reachable (w.arrays rout).length oo m.length) →
      ∃ w', w.step env (.desFinal c rin io il rout oo) = some (.error .arrayIndexOutOfBounds, w')) := by
  obtain ⟨halg, g, g1, g2, g3⟩ := setUp_state env w c alg 1 key iv hs
  have c3 := C99_decrypt alg halg g key iv g2 g3 m ct hx he (w.arrays rin) io il hin hct (w.arrays rout) oo
  refine ⟨fun hr => ?_, fun hr => ?_⟩
  · obtain ⟨out, c', e1, e2⟩ := c3.1 hr
    obtain ⟨w', e3, e4⟩ := step_final env w c _ g1 rin io il rout oo _ _ _ e1
    exact ⟨w', e3, by rw [e4]; exact e2⟩
  · have e := c3.2 hr
    cases hd : (desAfter alg g).doFinal (w.arrays rin) io il (w.arrays rout) oo with
    | mk res oc =>
      obtain ⟨w', e3, _⟩ := step_final env w c _ g1 rin io il rout oo _ _ _ hd
      rw [hd] at e
      simp only at e
      rw [e] at e3
      exact ⟨w', e3⟩

theorem stored_cells (b a : List Int) (o : Int) (n : Nat) (val : Nat → Int) (h : Stored b a o n val) (hn : n ≤ b.length) :
    cellsFrom a o n = (List.range n).map val := by
  obtain ⟨h1, h2, h3⟩ := h
  unfold cellsFrom
  apply List.map_congr_left
  intro j hj
  have hj := List.mem_range.1 hj
  obtain ⟨p, hp⟩ := h2 j hj
  rw [← cellAt_names a (o + j) p (by rw [h1]; exact hp)]
  rcases h3 p with ⟨i, hi, g1, g2, _⟩ | ⟨g, _⟩
  · have hij : i = j := by
      obtain ⟨p1, p2⟩ := hp
      obtain ⟨q1, q2⟩ := g1
      rcases h2 0 (by omega) with ⟨z, z1, z2⟩
      rcases h2 (n - 1) (by omega) with ⟨y, y1, y2⟩
      omega
    subst hij
    rw [List.getElem?_eq_getElem (by rw [h1]; exact hp.1)] at g2
    injection g2
  · exact absurd hp (g j hj)

/-- C108. Encrypt in the midst of any program, go on with any program that does not write the ciphertext's array and does not initialise the other
cipher, decrypt with a cipher set up with the same key bytes and initial vector: the message comes back, in whatever arrays. Cipher and plaintext
arrays may coincide, and both ciphers may be used for anything else in between. -/
theorem C108_roundtrip (env : CryptoEnv) (w : CryptoWorld) (a b : Nat) (alg : Int) (key iv : List Nat) (ha : SetUp env w a alg 2 key iv)
    (hb : SetUp env w b alg 1 key iv) (rin : Nat) (io il : Int) (hin : il ≤ 0 ∨ Reachable (w.arrays rin).length io il.toNat)
    (hn : alg = 1 ∨ alg = 5 → il.toNat % 8 = 0) (L : Nat) (hL : L = if alg = 1 ∨ alg = 5 then il.toNat else (il.toNat / 8 + 1) * 8)
    (rout : Nat) (oo : Int) (hout : L = 0 ∨ (Reachable (w.arrays rout).length oo L ∧ L ≤ (w.arrays rout).length)) :
    ∃ w1, w.step env (.desFinal a rin io il rout oo) = some (.ok (.int L), w1) ∧
      ∀ P w2, w1.run env P = some w2 → (∀ s ∈ P, arrayOf s ≠ some rout) → (∀ s ∈ P, desInitOf s ≠ some b) →
        ∀ r' o', (il.toNat = 0 ∨ Reachable (w2.arrays r').length o' il.toNat) →
          ∃ w3, w2.step env (.desFinal b rout oo L r' o') = some (.ok (.int il.toNat), w3) ∧
            Stored (w2.arrays r') (w3.arrays r') o' il.toNat (fun j => signedCell (valueOf (cellAt (w.arrays rin) (io + j)))) := by
  obtain ⟨ct, c1, c2, c3⟩ := C108_encrypt env w a alg key iv ha rin io il hin hn
  rw [← hL] at c2
  have hr : ct = [] ∨ Reachable (w.arrays rout).length oo ct.length := by
    rw [c2]
    rcases hout with h | h
    · left; rw [h] at c2; exact List.length_eq_zero_iff.1 c2
    · exact .inr h.1
  obtain ⟨w1, e1, e2⟩ := (c3 rout oo).1 hr
  rw [c2] at e1 e2
  refine ⟨w1, e1, ?_⟩
  intro P w2 hP hw hi r' o' hr'
  have hsb : SetUp env w2 b alg 1 key iv := by
    refine hb.later (.desFinal a rin io il rout oo :: P) ?_ ?_
    · unfold CryptoWorld.run; rw [e1]; exact hP
    · intro t ht
      rcases List.mem_cons.1 ht with rfl | ht
      · exact (fun h => nomatch h)
      · exact hi t ht
  have hA : w2.arrays rout = w1.arrays rout := (C108_frame env w1 w2 P hP).1 rout hw
  have hcells : (cellsFrom (w2.arrays rout) oo L).map valueOf = ct := by
    rw [hA]
    rcases hout with h | h
    · rw [h]; rw [h] at c2; rw [List.length_eq_zero_iff.1 c2]; rfl
    · rw [stored_cells _ _ _ _ _ e2 h.2, List.map_map]
      obtain ⟨halg, g, _, g2, g3⟩ := setUp_state env w a alg 2 key iv ha
      have hlt : ∀ x ∈ ct, x < 256 := encrypts_bytes alg halg key iv _ ct (histReady alg g 2 key iv g2 g3).2 c1
      apply List.ext_getElem
      · simp [c2]
      · intro i h1 h2
        simp only [List.getElem_map, List.getElem_range, Function.comp]
        rw [List.getD_eq_getElem?_getD, List.getElem?_eq_getElem h2]
        exact value_cell _ (hlt _ (List.getElem_mem _))
  have hlm : ((cellsFrom (w.arrays rin) io il.toNat).map valueOf).length = il.toNat := by rw [List.length_map, cellsFrom_length]
  have D := (C108_decrypt env w2 b alg key iv hsb _ ct (values_lt _) c1 rout oo L (by
      rcases hout with h | h
      · left; omega
      · right; rw [hA, e2.1]; exact h.1) hcells r' o').1 (by
        rcases hr' with h | h
        · left; exact List.length_eq_zero_iff.1 (by rw [hlm]; exact h)
        · right; rw [hlm]; exact h)
  obtain ⟨w3, d1, d2⟩ := D
  rw [hlm] at d1 d2
  refine ⟨w3, d1, ?_⟩
  have he : ∀ j < il.toNat, signedCell (((cellsFrom (w.arrays rin) io il.toNat).map valueOf).getD j 0) = signedCell (valueOf (cellAt (w.arrays rin) (io + j))) := by
    intro j hj
    rw [List.getD_eq_getElem?_getD, List.getElem?_eq_getElem (by rw [hlm]; exact hj)]
    simp [cellsFrom]
  obtain ⟨f1, f2, f3⟩ := d2
  refine ⟨f1, f2, fun p => ?_⟩
  rcases f3 p with ⟨j, g1, g2, g3, g4⟩ | g
  · exact .inl ⟨j, g1, g2, g3.trans (congrArg some (he j g1)), g4⟩
  · exact .inr g

/-! ### Keys -/

/-- What every later state of a key object shares with an earlier one: its class and size, and that it is initialised if it was. -/
def Grown : KeyObj → KeyObj → Prop
  | .des a, .des b => b.size = a.size ∧ b.type = a.type ∧ (a.initialized = true → b.initialized = true)
  | .rsa a, .rsa b => b.size = a.size ∧ b.type = a.type ∧ b.isPublic = a.isPublic ∧ (a.initialized = true → b.initialized = true)
  | _, _ => False

theorem grown_refl (x : KeyObj) : Grown x x := by cases x <;> simp [Grown]

theorem grown_trans {x y z : KeyObj} (h : Grown x y) (g : Grown y z) : Grown x z := by
  cases x <;> cases y <;> cases z <;> simp only [Grown] at h g ⊢
  · exact ⟨g.1.trans h.1, g.2.1.trans h.2.1, g.2.2.1.trans h.2.2.1, fun i => g.2.2.2 (h.2.2.2 i)⟩
  · exact ⟨g.1.trans h.1, g.2.1.trans h.2.1, fun i => g.2.2 (h.2.2 i)⟩

theorem grown_afterSet (pc : Bool) (k k' : RSAKey) (h : Grown (.rsa k) (.rsa k')) : Grown (.rsa k) (.rsa (k'.afterSet pc).2) := by
  unfold RSAKey.afterSet
  repeat' split
  all_goals first
    | exact h
    | exact ⟨h.1, h.2.1, h.2.2.1, fun _ => rfl⟩

theorem key_step (env : CryptoEnv) (w w' : CryptoWorld) (s : Step) (o : Except Err CryptoWorld.Out) (hs : w.step env s = some (o, w')) (k : Nat) (x : KeyObj)
    (hk : w.keys[k]? = some x) : ∃ x', w'.keys[k]? = some x' ∧ Grown x x' := by
  by_cases hd : keyOf s = some k
  · have hlt := lt_of_getElem? hk
    cases s <;> simp only [keyOf, Option.some.injEq, reduceCtorEq] at hd
    all_goals
      subst hd
      simp only [CryptoWorld.step, hk] at hs
      cases x with
      | des d =>
        simp only at hs
        injection hs with hs; injection hs with _ hs; subst hs
        first
          | exact ⟨_, hk, grown_refl _⟩
          | exact ⟨_, List.getElem?_set_self hlt, rfl, rfl, fun _ => rfl⟩
      | rsa d =>
        simp only at hs
        injection hs with hs; injection hs with _ hs; subst hs
        first
          | exact ⟨_, hk, grown_refl _⟩
          | (refine ⟨_, List.getElem?_set_self hlt, ?_⟩
             first
               | exact grown_afterSet _ _ _ ⟨rfl, rfl, rfl, fun h => h⟩
               | (split
                  · exact grown_afterSet _ _ _ ⟨rfl, rfl, rfl, fun h => h⟩
                  · unfold RSAKey.setModulus
                    split
                    · exact grown_refl _
                    · exact grown_afterSet _ _ _ ⟨rfl, rfl, rfl, fun h => h⟩))
  · exact ⟨x, (step_frame env w w' s o hs).keys k x hd hk, grown_refl x⟩

/-- C108. Key objects never go away, never change class, size or type and never lose their initialised state, whatever a program does - `clearKey` included. -/
theorem C108_keys_last (env : CryptoEnv) (w w' : CryptoWorld) (P : List Step) (h : w.run env P = some w') (k : Nat) (x : KeyObj) (hk : w.keys[k]? = some x) :
    ∃ x', w'.keys[k]? = some x' ∧ Grown x x' := by
  induction P generalizing w x with
  | nil => injection h with h; subst h; exact ⟨x, hk, grown_refl x⟩
  | cons s P ih =>
    obtain ⟨o, w1, h1, h2⟩ := run_cons h
    obtain ⟨y, y1, y2⟩ := key_step env w w1 s o h1 k x hk
    obtain ⟨z, z1, z2⟩ := ih w1 h2 y y1
    exact ⟨z, z1, grown_trans y2 z2⟩

/-! ### RSA ciphers -/

theorem rsa_init_state (c : RSACipher) (heap : KeyHeap) (k : KeyArg) (m : Int) (h : (c.init heap k m).1 = .ok ()) :
    ∃ r x, k = .key r ∧ heap r = .rsa x ∧ x.initialized = true ∧ (m = 1 ∨ m = 2) ∧ (c.init heap k m).2 = ⟨⟨c.base.algorithm, true, some m⟩, some r⟩ := by
  unfold RSACipher.init CipherBase.init at *
  cases k with
  | notKey => cases h
  | key r =>
    simp only at *
    by_cases hi : (heap r).isInitialized = true
    · rw [if_neg (show ¬ ¬ (heap r).isInitialized = true from fun h => h hi)] at h ⊢
      by_cases hm : (m = 1 ∨ m = 2)
      · rw [if_neg (show ¬ ¬ (m = MODE_ENCRYPT ∨ m = MODE_DECRYPT) by unfold MODE_ENCRYPT MODE_DECRYPT; omega)] at h ⊢
        simp only at *
        cases hx : heap r with
        | des d => rw [hx] at h; cases h
        | rsa x =>
          rw [hx] at hi
          exact ⟨r, x, rfl, hx, hi, hm, rfl⟩
      · rw [if_pos (show ¬ (m = MODE_ENCRYPT ∨ m = MODE_DECRYPT) by unfold MODE_ENCRYPT MODE_DECRYPT; omega)] at h
        cases h
    · rw [if_pos hi] at h; cases h

/-- C108. An RSA cipher keeps the key object itself, not its value: initialising the cipher again with the same object and mode, at any later point of
any program that does not initialise it otherwise, changes nothing at all - so what it computes is what a cipher initialised only now computes, and
setting the key object anew changes what it computes. -/
theorem C108_rsa_live (env : CryptoEnv) (w0 w1 w2 : CryptoWorld) (c k : Nat) (m : Int) (P : List Step)
    (h0 : w0.step env (.rsaInit c (some k) m) = some (.ok .nothing, w1)) (hP : w1.run env P = some w2) (hn : ∀ s ∈ P, rsaInitOf s ≠ some c) :
    w2.step env (.rsaInit c (some k) m) = some (.ok .nothing, w2) := by
  simp only [CryptoWorld.step] at h0 ⊢
  cases hx : w0.rsa[c]? with
  | none => rw [hx] at h0; cases h0
  | some x =>
    rw [hx] at h0
    simp only at h0
    injection h0 with h0; injection h0 with h0 h1
    obtain ⟨_, h0⟩ := map_ok h0
    obtain ⟨r, y, e1, e2, e3, e4, e5⟩ := rsa_init_state _ _ _ _ h0
    have hk : k < w0.keys.length ∧ r = k := by
      unfold CryptoWorld.keyArg at e1
      simp only at e1
      split at e1
      · next hl => injection e1 with e1; exact ⟨hl, e1.symm⟩
      · cases e1
    obtain ⟨hk, rfl⟩ := hk
    have hy : w1.keys[r]? = some (.rsa y) := by
      rw [← h1]
      show w0.keys[r]? = _
      rw [List.getElem?_eq_getElem hk, ← e2]
      unfold CryptoWorld.heap
      rw [List.getElem?_eq_getElem hk]; rfl
    have hc1 : w1.rsa[c]? = some ⟨⟨x.base.algorithm, true, some m⟩, some r⟩ := by
      rw [← h1, ← e5]
      exact List.getElem?_set_self (lt_of_getElem? hx)
    have hc2 := (C108_frame env w1 w2 P hP).2.2.2.2.1 c _ hn hc1
    obtain ⟨z, z1, z2⟩ := C108_keys_last env w1 w2 P hP r _ hy
    rw [hc2]
    simp only
    have hz : ∃ z', z = .rsa z' ∧ z'.initialized = true := by
      cases z with
      | des d => exact z2.elim
      | rsa z' => exact ⟨z', rfl, z2.2.2.2 e3⟩
    obtain ⟨z', rfl, hz⟩ := hz
    have hinit : (RSACipher.mk ⟨x.base.algorithm, true, some m⟩ (some r)).init w2.heap (w2.keyArg (some r)) m = (.ok (), ⟨⟨x.base.algorithm, true, some m⟩, some r⟩) := by
      rw [keyArg_get _ _ _ z1]
      unfold RSACipher.init CipherBase.init
      simp only [heap_get _ _ _ z1]
      rw [if_neg (show ¬ ¬ (KeyObj.rsa z').isInitialized = true from fun h => h hz),
        if_neg (show ¬ ¬ (m = MODE_ENCRYPT ∨ m = MODE_DECRYPT) by unfold MODE_ENCRYPT MODE_DECRYPT; omega)]
      simp only [heap_get _ _ _ z1]
    rw [hinit]
    have hset : w2.rsa.set c ⟨⟨x.base.algorithm, true, some m⟩, some r⟩ = w2.rsa := by
      apply List.ext_getElem?
      intro i
      by_cases hi : c = i
      · subst hi
        rw [List.getElem?_set_self (lt_of_getElem? hc2), hc2]
      · rw [List.getElem?_set_ne hi]
    simp only [hset]
    rfl

/-- Specification: at some moment of the program that led to `w`, the RSA cipher `c`, an object for the algorithm `alg`, was initialised for `mode` with the
key object `k`, and no `init` on `c` was called since. -/
def RSASetUp (env : CryptoEnv) (w : CryptoWorld) (c : Nat) (alg mode : Int) (k : Nat) : Prop :=
  ∃ (w0 w1 : CryptoWorld) (P : List Step) (x : RSACipher), w0.rsa[c]? = some x ∧ x.base.algorithm = alg ∧ w0.step env (.rsaInit c (some k) mode) = some (.ok .nothing, w1) ∧ w1.run env P = some w ∧
    ∀ s ∈ P, rsaInitOf s ≠ some c

theorem RSASetUp.later {env : CryptoEnv} {w w' : CryptoWorld} {c : Nat} {alg mode : Int} {k : Nat} (h : RSASetUp env w c alg mode k) (P : List Step)
    (hP : w.run env P = some w') (hn : ∀ t ∈ P, rsaInitOf t ≠ some c) : RSASetUp env w' c alg mode k := by
  obtain ⟨w0, w1, P1, x, h1, h2, h3, h4, h5⟩ := h
  refine ⟨w0, w1, P1 ++ P, x, h1, h2, h3, ?_, ?_⟩
  · rw [run_append, h4]; exact hP
  · intro t ht
    rcases List.mem_append.1 ht with ht | ht
    · exact h5 t ht
    · exact hn t ht

theorem rsaSetUp_state {env : CryptoEnv} {w : CryptoWorld} {c : Nat} {alg mode : Int} {k : Nat} (h : RSASetUp env w c alg mode k) :
    (mode = 1 ∨ mode = 2) ∧ w.rsa[c]? = some ⟨⟨alg, true, some mode⟩, some k⟩ := by
  obtain ⟨w0, w1, P, x, h1, h2, h3, h4, h5⟩ := h
  simp only [CryptoWorld.step, h1] at h3
  injection h3 with h3; injection h3 with h3 h6
  obtain ⟨_, h3⟩ := map_ok h3
  obtain ⟨r, y, e1, e2, e3, e4, e5⟩ := rsa_init_state _ _ _ _ h3
  have hk : r = k := by
    unfold CryptoWorld.keyArg at e1
    simp only at e1
    split at e1
    · injection e1 with e1; exact e1.symm
    · cases e1
  subst hk
  refine ⟨e4, (C108_frame env w1 w P h4).2.2.2.2.1 c _ h5 ?_⟩
  rw [← h6, ← h2, ← e5]
  exact List.getElem?_set_self (lt_of_getElem? h1)

theorem rsaSetUp_ready {env : CryptoEnv} {w : CryptoWorld} {c : Nat} {alg mode : Int} {k : Nat} (h : RSASetUp env w c alg mode k) (x : RSAKey) (hx : w.keys[k]? = some (.rsa x))
    (hd : KeyHandle) (ht : x.theKey = some hd) : ∃ y, w.rsa[c]? = some y ∧ RSAReady w.heap y alg mode x.isPublic x.size hd :=
  ⟨_, (rsaSetUp_state h).2, rfl, rfl, rfl, k, x, rfl, heap_get _ _ _ hx, rfl, rfl, ht⟩

theorem step_rsaFinal (env : CryptoEnv) (w : CryptoWorld) (c : Nat) (x : RSACipher) (hx : w.rsa[c]? = some x) (rnd : List Nat) (r : Nat) (io il : Int) (r' : Nat) (oo : Int)
    (res : Except Err Int) (out : List Int) (h : x.doFinal w.heap env.ops env.longSuffix rnd (w.arrays r) io il (w.arrays r') oo = some (res, out)) :
    ∃ w', w.step env (.rsaFinal c rnd r io il r' oo) = some (res.map .int, w') ∧ w'.arrays r' = out := by
  refine ⟨w.setArray r' out, by simp only [CryptoWorld.step, hx, h]; rfl, ?_⟩
  simp [CryptoWorld.setArray]

/-- C108. RSA with PKCS1 padding in the midst of any program (Python 2, a library whose operations invert each other on the two key objects' keys): what one
cipher encrypts, another decrypts after any program that does not initialise it and does not set its key object, from whatever array then holds the ciphertext
completed with zeros. -/
theorem C108_rsa_roundtrip (env : CryptoEnv) (hls : env.longSuffix = true) (w : CryptoWorld) (a b ka kb : Nat) (ha : RSASetUp env w a 10 2 ka)
    (hb : RSASetUp env w b 10 1 kb) (xa xb : RSAKey) (hxa : w.keys[ka]? = some (.rsa xa)) (hxb : w.keys[kb]? = some (.rsa xb)) (hpriv : xb.isPublic = false)
    (size : Nat) (hsa : xa.size = size) (hsb : xb.size = size) (h h' : KeyHandle) (hta : xa.theKey = some h) (htb : xb.theKey = some h')
    (N : Nat) (hinv : Inverts env.ops N h h') (hN : N ≤ 256 ^ (size / 8)) (rnd : List Nat) (hrnd : ∀ b ∈ rnd, b < 256)
    (rin io n : Nat) (hin : io + n ≤ (w.arrays rin).length) (M : List Int) (hMe : range (w.arrays rin) io n = M) (hM : M ≠ []) (hu : Unsigned M)
    (hlast : M.getLast hM ≠ 0) (hlen : n + 11 ≤ size / 8) (htop : (M.getLast hM + 1) * 256 ^ (size / 8 - 1) ≤ (N : Int))
    (hcount : size / 8 ≤ n + 3 + rnd.countP (· ≠ 0)) (rout oo : Nat) (hout : oo + size / 8 ≤ (w.arrays rout).length) :
    ∃ ct w1, w.step env (.rsaFinal a rnd rin io n rout oo) = some (.ok (.int ct.length), w1) ∧ ct.length ≤ size / 8 ∧
      Written (w.arrays rout) (w1.arrays rout) oo ct ∧
      ∀ P w2, w1.run env P = some w2 → (∀ s ∈ P, keyOf s ≠ some kb) → (∀ s ∈ P, rsaInitOf s ≠ some b) →
        ∀ r1 o1 r2 o2 rnd', o1 + size / 8 ≤ (w2.arrays r1).length → range (w2.arrays r1) o1 (size / 8) = ct ++ List.replicate (size / 8 - ct.length) 0 →
          o2 + n ≤ (w2.arrays r2).length →
          ∃ w3, w2.step env (.rsaFinal b rnd' r1 o1 (size / 8 : Nat) r2 o2) = some (.ok (.int n), w3) ∧ Written (w2.arrays r2) (w3.arrays r2) o2 M := by
  have hsz : ((size : Int) / 8).toNat = size / 8 := by omega
  have hMl : M.length = n := by rw [← hMe]; simp only [range, List.length_take, List.length_drop]; omega
  obtain ⟨ca, ca1, ca2⟩ := rsaSetUp_ready ha xa hxa h hta
  rw [hsa] at ca2
  obtain ⟨b1, _, b3⟩ := C63_block rnd hrnd (size : Int) M (by omega)
  obtain ⟨B, hB⟩ := b3 (by omega)
  have hblk := b1 B hB
  have hBN : arrayToLong B < N := by
    have := block_below _ M B hblk hM hu
    obtain ⟨_, _, _, _, hl⟩ := hblk
    have hl : (B.length : Int) = (size : Int) / 8 := hl
    rw [show B.length - 1 = size / 8 - 1 by omega] at this
    omega
  have main := fun (heap' : KeyHeap) (c' : RSACipher) (hd : RSAReady heap' c' 10 1 false size h') (rnd' : List Nat) =>
    C64_pkcs1_roundtrip w.heap heap' ca c' xa.isPublic size h h' N ca2 hd env.ops hinv (by rw [hsz]; exact hN) rnd rnd' hrnd (w.arrays rin) (w.arrays rout) io n oo hin
      (by rw [hMe]; exact hu) B (by rw [hMe]; exact hB) hBN (by rw [hsz]; exact hout)
  obtain ⟨cb0, cb01, cb02⟩ := rsaSetUp_ready hb xb hxb h' htb
  rw [hsb, hpriv] at cb02
  obtain ⟨ct, out, e1, e2, _, e4, _⟩ := main _ _ cb02 []
  rw [← hls] at e1
  obtain ⟨w1, s1, s2⟩ := step_rsaFinal env w a ca ca1 rnd rin io n rout oo _ _ e1
  refine ⟨ct, w1, s1, by omega, by rw [s2]; exact e2, ?_⟩
  intro P w2 hP hkb hib r1 o1 r2 o2 rnd' hr1 hct hr2
  have hb2 : RSASetUp env w2 b 10 1 kb := by
    refine hb.later (.rsaFinal a rnd rin io n rout oo :: P) ?_ ?_
    · unfold CryptoWorld.run; rw [s1]; exact hP
    · intro t ht
      rcases List.mem_cons.1 ht with rfl | ht
      · exact (fun h => nomatch h)
      · exact hib t ht
  have hxb2 : w2.keys[kb]? = some (.rsa xb) := by
    refine (C108_frame env w1 w2 P hP).2.1 kb _ hkb ?_
    exact (step_frame env w w1 _ _ s1).keys kb _ (fun h => nomatch h) hxb
  obtain ⟨cb, cb1, cb2⟩ := rsaSetUp_ready hb2 xb hxb2 h' htb
  rw [hsb, hpriv] at cb2
  obtain ⟨ct', out', e1', hw', _, _, hdec⟩ := main _ _ cb2 rnd'
  rw [← hls] at e1'
  rw [e1] at e1'
  have hcl : ct'.length = ct.length := by
    injection e1' with e; injection e with e _; injection e with e; omega
  have hsame : ct' = ct := by
    injection e1' with e; injection e with _ e
    subst e
    apply List.ext_getElem hcl
    intro i g1 g2
    have q1 := e2.2.2.1 i g2
    have q2 := hw'.2.2.1 i g1
    rw [q1] at q2
    injection q2 with q2
    exact q2.symm
  subst hsame
  obtain ⟨out2, f1, f2⟩ := (hdec (w2.arrays r1) (w2.arrays r2) o1 o2 (by rw [hsz]; exact hr1) (by rw [hsz]; exact hct) M 0 (by rw [hMe]; simp)
    (by rw [List.getLast?_eq_some_getLast hM]; simpa using hlast) (by rw [hMl]; exact hr2)).1 hM
  rw [hsz, ← hls, hMl] at f1
  obtain ⟨w3, t1, t2⟩ := step_rsaFinal env w2 b cb cb1 rnd' r1 o1 (size / 8 : Nat) r2 o2 _ _ f1
  exact ⟨w3, t1, by rw [t2]; exact f2⟩

/-! ### Digests -/

/-- Specification: the bytes waiting in digest `d` after one step of a program, `p` being those waiting before: an `update` adds those of the cells it
names, `doFinal` and `reset` leave none. Calls whose cells do not exist count for nothing. -/
def fed (w : CryptoWorld) (d : Nat) (p : List Nat) : Step → List Nat
  | .digestUpdate d' r off len => if d' = d ∧ (len ≤ 0 ∨ Reachable (w.arrays r).length off len.toNat) then p ++ (cellsFrom (w.arrays r) off len.toNat).map valueOf else p
  | .digestFinal d' r off len _ _ => if d' = d ∧ (len ≤ 0 ∨ Reachable (w.arrays r).length off len.toNat) then [] else p
  | .digestReset d' => if d' = d then [] else p
  | _ => p

/-- Specification: the bytes waiting in digest `d` after a program that starts in world `w` with the bytes `p` waiting. -/
def waiting (env : CryptoEnv) (d : Nat) (w : CryptoWorld) (p : List Nat) : List Step → List Nat
  | [] => p
  | s :: P => match w.step env s with
    | none => p
    | some (_, w') => waiting env d w' (fed w d p s) P

theorem readLoop_any (b : List Int) (o : Int) (i n : Nat) :
    (n = 0 ∨ Reachable b.length (o + i) n → MessageDigest.readLoop b o i n = .ok (cellsFrom b (o + i) n)) ∧
    (¬ (n = 0 ∨ Reachable b.length (o + i) n) → ∃ e, MessageDigest.readLoop b o i n = .error e) := by
  induction n generalizing i with
  | zero => exact ⟨fun _ => rfl, fun h => absurd (.inl rfl) h⟩
  | succ n ih =>
    have ih := ih (i + 1)
    unfold MessageDigest.readLoop
    rw [show o + ((i + 1 : Nat) : Int) = o + i + 1 by omega] at ih
    constructor
    · intro h
      have h : Reachable b.length (o + i) (n + 1) := by rcases h with h | h; omega; exact h
      unfold Reachable at h
      obtain ⟨p, hp⟩ := names_of_reach b.length (o + i) (by omega)
      rw [get_names _ _ _ hp]
      simp only
      rw [ih.1 (by unfold Reachable; omega)]
      simp only
      rw [cellsFrom_succ, cellAt_names _ _ _ hp]
    · intro h
      by_cases hg : -(b.length : Int) ≤ o + i ∧ o + i < b.length
      · obtain ⟨p, hp⟩ := names_of_reach b.length (o + i) hg
        rw [get_names _ _ _ hp]
        simp only
        obtain ⟨e, he⟩ := ih.2 (by unfold Reachable at *; omega)
        rw [he]
        exact ⟨e, rfl⟩
      · have : Verif.Py.get b (o + i) = .error .indexError := by
          unfold Verif.Py.get; rw [(idx_none _ _).2 hg]
        rw [this]
        exact ⟨_, rfl⟩

theorem update_any (d : MessageDigest) (b : List Int) (o n : Int) :
    d.update b o n = if n ≤ 0 ∨ Reachable b.length o n.toNat then (.ok (), { d with m := d.m ++ (cellsFrom b o n.toNat).map valueOf }) else (.error .nameError, d) := by
  unfold MessageDigest.update
  obtain ⟨h1, h2⟩ := readLoop_any b o 0 (rangeLen n)
  simp only [Int.natCast_zero, Int.add_zero] at h1 h2
  have hr : rangeLen n = n.toNat := rfl
  rw [hr] at h1 h2 ⊢
  by_cases h : n ≤ 0 ∨ Reachable b.length o n.toNat
  · rw [if_pos h, h1 (by rcases h with h | h; exact .inl (by omega); exact .inr h)]
    simp only
    rw [binary_values]
  · obtain ⟨e, he⟩ := h2 (by rintro (h' | h'); exact h (.inl (by omega)); exact h (.inr h'))
    rw [if_neg h, he]

theorem final_state (H : HashLib) (d : MessageDigest) (b : List Int) (o n : Int) (out : List Int) (oo : Int) :
    (d.doFinal H b o n out oo).2.2 = if n ≤ 0 ∨ Reachable b.length o n.toNat then ⟨d.algorithm, []⟩ else d := by
  unfold MessageDigest.doFinal
  rw [update_any]
  by_cases h : n ≤ 0 ∨ Reachable b.length o n.toNat
  · rw [if_pos h, if_pos h]
    simp only
    split <;> rfl
  · rw [if_neg h, if_neg h]

theorem run_digest (env : CryptoEnv) (d : Nat) (w w' : CryptoWorld) (P : List Step) (h : w.run env P = some w') (alg : Int) (p : List Nat)
    (hd : w.digests[d]? = some ⟨alg, p⟩) : w'.digests[d]? = some ⟨alg, waiting env d w p P⟩ := by
  induction P generalizing w p with
  | nil => injection h with h; subst h; exact hd
  | cons s P ih =>
    obtain ⟨o, w1, h1, h2⟩ := run_cons h
    have fr := (step_frame env w w1 s o h1).digests d ⟨alg, p⟩
    have hlt := lt_of_getElem? hd
    have hw : ∀ q, w1.digests[d]? = some ⟨alg, q⟩ → (waiting env d w p (s :: P) = waiting env d w1 q P) → w'.digests[d]? = some ⟨alg, waiting env d w p (s :: P)⟩ := by
      intro q hq he
      rw [he]
      exact ih w1 h2 q hq
    by_cases hs : digestOf s = some d
    · cases s <;> simp only [digestOf, Option.some.injEq, reduceCtorEq] at hs
      case digestUpdate d' r off len =>
        subst hs
        have h1' := h1
        simp only [CryptoWorld.step, hd] at h1
        injection h1 with h1; injection h1 with _ h1
        refine hw (if len ≤ 0 ∨ Reachable (w.arrays r).length off len.toNat then p ++ (cellsFrom (w.arrays r) off len.toNat).map valueOf else p) ?_ ?_
        · rw [← h1]
          simp only [List.getElem?_set_self hlt, update_any]
          split <;> rfl
        · rw [waiting, h1']
          simp only [fed, true_and]
      case digestFinal d' r off len r' off' =>
        subst hs
        have h1' := h1
        simp only [CryptoWorld.step, hd] at h1
        injection h1 with h1; injection h1 with _ h1
        refine hw (if len ≤ 0 ∨ Reachable (w.arrays r).length off len.toNat then [] else p) ?_ ?_
        · rw [← h1]
          simp only [List.getElem?_set_self hlt, final_state]
          split <;> rfl
        · rw [waiting, h1']
          simp only [fed, true_and]
      case digestReset d' =>
        subst hs
        have h1' := h1
        simp only [CryptoWorld.step, hd] at h1
        injection h1 with h1; injection h1 with _ h1
        refine hw [] ?_ ?_
        · rw [← h1]
          simp only [List.getElem?_set_self hlt]
          rfl
        · rw [waiting, h1']
          simp only [fed, if_true]
    · refine hw p (fr hs hd) ?_
      rw [waiting, h1]
      have hp : fed w d p s = p := by
        cases s <;> simp only [fed] <;> simp only [digestOf, Option.some.injEq] at hs <;> simp only [hs, false_and, if_false]
      simp only [hp]

/-- C108. A digest made at any point of any program: whatever calls on it and on everything else follow, `doFinal` writes the hash of the bytes waiting
and those it is given, and nothing of the arrays that were read matters any more. The array read may be the array written. -/
theorem C108_digest (env : CryptoEnv) (w0 w1 w : CryptoWorld) (alg : Int) (d : Nat) (P : List Step)
    (h0 : w0.step env (.getDigest alg) = some (.ok (.digest d), w1)) (hP : w1.run env P = some w)
    (L : Nat) (hH : ∀ m, (env.hash alg m).length = L ∧ ∀ x ∈ env.hash alg m, x < 256)
    (r : Nat) (off len : Int) (hin : len ≤ 0 ∨ Reachable (w.arrays r).length off len.toNat) (r' : Nat) (off' : Int)
    (hout : L = 0 ∨ Reachable (w.arrays r').length off' L) :
    ∃ w', w.step env (.digestFinal d r off len r' off') = some (.ok (.int L), w') ∧
      Stored (w.arrays r') (w'.arrays r') off' L
        (fun j => signedCell ((env.hash alg (waiting env d w1 [] P ++ (cellsFrom (w.arrays r) off len.toNat).map valueOf)).getD j 0)) := by
  have hd : w1.digests[d]? = some ⟨alg, []⟩ := by
    simp only [CryptoWorld.step] at h0
    split at h0
    · cases h0
    · next x hx =>
      injection h0 with h0; injection h0 with h1 h2
      injection h1 with h1
      injection h1 with h1
      rw [← h2, ← h1, List.getElem?_append_right (Nat.le_refl _), Nat.sub_self]
      unfold MessageDigest.getInstance at hx
      split at hx
      · injection hx with hx; rw [← hx]; rfl
      · cases hx
  have hd' := run_digest env d w1 w P hP alg [] hd
  generalize waiting env d w1 [] P = p at hd' ⊢
  generalize hm : p ++ (cellsFrom (w.arrays r) off len.toNat).map valueOf = m
  obtain ⟨l1, l2⟩ := hH m
  have hf : ∃ out c, (MessageDigest.mk alg p).doFinal env.hash (w.arrays r) off len (w.arrays r') off' = (.ok (L : Int), out, c) ∧
      Stored (w.arrays r') out off' L (fun j => signedCell ((env.hash alg m).getD j 0)) := by
    unfold MessageDigest.doFinal
    rw [update_any, if_pos hin]
    simp only
    rw [hm, writeLoop_puts]
    simp only [Int.natCast_zero, Int.add_zero]
    have hb : (env.hash alg m).map (fun v : Nat => s1 (v : Int)) = (env.hash alg m).map signedCell := binary_cells _ l2
    rw [hb]
    obtain ⟨p1, _⟩ := puts_spec (w.arrays r') off' ((env.hash alg m).map signedCell)
    rw [List.length_map, l1] at p1
    obtain ⟨p1, p2⟩ := p1 (by
      rcases hout with h | h
      · right; rw [List.map_eq_nil_iff]; exact List.length_eq_zero_iff.1 (l1.trans h)
      · exact .inl h)
    generalize puts (w.arrays r') off' ((env.hash alg m).map signedCell) = q at p1 p2
    obtain ⟨q1, q2⟩ := q
    simp only at p1 p2
    subst p1
    refine ⟨q2, _, by rw [(hH []).1], ?_⟩
    obtain ⟨b1, b2, b3⟩ := p2
    refine ⟨b1, b2, fun i => ?_⟩
    rcases b3 i with ⟨j, hj, c1, c2, c3⟩ | c
    · refine .inl ⟨j, hj, c1, ?_, c3⟩
      rw [c2]
      simp only [List.getD_eq_getElem?_getD, List.getElem?_map]
      rw [List.getElem?_eq_getElem (by omega)]
      rfl
    · exact .inr c
  obtain ⟨out, c, f1, f2⟩ := hf
  refine ⟨{ w.setArray r' out with digests := w.digests.set d c }, by simp only [CryptoWorld.step, hd', f1]; rfl, ?_⟩
  have : ({ w.setArray r' out with digests := w.digests.set d c } : CryptoWorld).arrays r' = out := by simp [CryptoWorld.setArray]
  rw [this]
  exact f2

/-- C108. How a cipher comes to be set up: a key object of `8 * n` bits gets its bytes by `setKey` from an array; after any program that does not set that
key again, a cipher is initialised with it; after any program that does not initialise that cipher again, it is set up with the bytes the array held when
`setKey` was called, those the initial vector's array held when `init` was called, and the mode of that `init`. -/
theorem C108_setup (env : CryptoEnv) (arrays : Nat → List Int) (P0 P1 P2 : List Step) (w0 w1 w2 w3 w4 : CryptoWorld) (c k r n : Nat) (off : Nat) (d : DESKey)
    (x : DESCipher) (mode : Int) (r' : Nat) (off' : Int)
    (h0 : (start arrays).run env P0 = some w0) (hk : w0.keys[k]? = some (.des d)) (hn : d.size / 8 = n) (hr : off + n ≤ (w0.arrays r).length)
    (h1 : w0.step env (.setKey k r off) = some (.ok .nothing, w1)) (h2 : w1.run env P1 = some w2) (hP1 : ∀ s ∈ P1, keyOf s ≠ some k)
    (hc : w2.des[c]? = some x) (h3 : w2.step env (.desInit c (some k) mode r' off' 8) = some (.ok .nothing, w3))
    (h4 : w3.run env P2 = some w4) (hP2 : ∀ s ∈ P2, desInitOf s ≠ some c) :
    SetUp env w4 c x.base.algorithm mode ((cellsFrom (w0.arrays r) off n).map valueOf) ((cellsFrom (w2.arrays r') off' 8).map valueOf) := by
  refine ⟨arrays, P0 ++ .setKey k r off :: P1, w2, .desInit c (some k) mode r' off' 8, w3, P2, k, d.setKey (w0.arrays r) off, x, ?_, h3, h4, hP2, hc, rfl, ?_, ?_,
    .inl ⟨r', off', rfl, rfl⟩⟩
  · rw [run_append, h0]
    show w0.run env _ = _
    unfold CryptoWorld.run
    rw [h1]
    exact h2
  · refine (C108_frame env w1 w2 P1 h2).2.1 k _ hP1 ?_
    simp only [CryptoWorld.step, hk] at h1
    injection h1 with h1; injection h1 with _ h1
    rw [← h1]
    exact List.getElem?_set_self (lt_of_getElem? hk)
  · unfold DESKey.setKey
    simp only [hn]
    rw [slice_add, binary_values]
    congr 2
    apply List.ext_getElem
    · simp only [List.length_take, List.length_drop, cellsFrom_length]; omega
    · intro i g1 g2
      have g3 : i < n := by rw [cellsFrom_length] at g2; exact g2
      have e : (cellsFrom (w0.arrays r) off n)[i] = cellAt (w0.arrays r) (off + i) := by simp [cellsFrom]
      rw [e, List.getElem_take, List.getElem_drop]
      exact cellAt_names (w0.arrays r) (off + i) (off + i) ⟨by omega, .inl (by omega)⟩

/-! A concrete program: a DES key and two ciphers on it; then the key object and the array of the initial vector are overwritten, a third cipher is
initialised with the new key and used, and the first two still have the first key. -/

def demoEnv : CryptoEnv := ⟨true, true, ⟨fun _ _ => .ok 0, fun _ _ => .ok 0⟩, fun _ _ => [1, 255]⟩
def demoArrays : Nat → List Int := fun r => if r = 0 then [1, 2, 3, 4, 5, 6, 7, 8] else if r = 1 then [10, -20, 30, -40, 50, -60, 70, -80] else List.replicate 16 0
def demoSetUp : List Step := [.buildKey [3, 64, 0], .setKey 0 0 0, .getCipher [4, 0], .getCipher [4, 0], .getCipher [4, 0]]
def demoAfter : List Step := [.setKey 0 1 0, .write 1 [0], .desInitDefault 2 (some 0) 2, .desFinal 2 0 0 8 2 0, .clearKey 0]

theorem demo_both : ∃ w, SetUp demoEnv w 0 4 2 [1, 2, 3, 4, 5, 6, 7, 8] [10, 236, 30, 216, 50, 196, 70, 176] ∧
    SetUp demoEnv w 1 4 1 [1, 2, 3, 4, 5, 6, 7, 8] [10, 236, 30, 216, 50, 196, 70, 176] ∧
    w.keys[0]? = some (.des ⟨true, 64, 3, some [10, 236, 30, 216, 50, 196, 70, 176]⟩) ∧ w.arrays 1 = [0] := by
  refine ⟨_, ⟨demoArrays, demoSetUp, _, .desInit 0 (some 0) 2 1 0 8, _, .desInit 1 (some 0) 1 1 0 8 :: demoAfter, 0, _, _, rfl, rfl, rfl, ?_, rfl, rfl, rfl, rfl,
      .inl ⟨1, 0, rfl, by decide⟩⟩,
    ⟨demoArrays, demoSetUp ++ [.desInit 0 (some 0) 2 1 0 8], _, .desInit 1 (some 0) 1 1 0 8, _, demoAfter, 0, _, _, rfl, rfl, rfl, ?_, rfl, rfl, rfl, rfl,
      .inl ⟨1, 0, rfl, by decide⟩⟩, rfl, rfl⟩
  all_goals
    intro t ht
    simp only [demoAfter, List.mem_cons, List.not_mem_nil, or_false] at ht
    rcases ht with rfl | rfl | rfl | rfl | rfl | rfl <;> simp [desInitOf]

/-! Any key the library generates: a pair made and generated, a cipher on each of its keys. -/
def demoPair (t : TheKey) : List Step := [.newPair 1 1024, .genKeyPair 0 t, .getCipher [10, 0], .getCipher [10, 0]]
def afterP (env : CryptoEnv) (arrays : Nat → List Int) (P : List Step) : CryptoWorld := ((start arrays).run env P).getD (start arrays)

theorem demo_rsa (ops : RSAOps) (H : HashLib) (arrays : Nat → List Int) (t : TheKey) : ∃ w xa xb, RSASetUp ⟨true, true, ops, H⟩ w 0 10 2 2 ∧ RSASetUp ⟨true, true, ops, H⟩ w 1 10 1 3 ∧
    w.keys[2]? = some (.rsa xa) ∧ w.keys[3]? = some (.rsa xb) ∧ xb.isPublic = false ∧ xa.size = 1024 ∧ xb.size = 1024 ∧
    xa.theKey = some (.given t) ∧ xb.theKey = some (.given t) ∧ w.arrays = arrays := by
  refine ⟨afterP ⟨true, true, ops, H⟩ arrays (demoPair t ++ [.rsaInit 0 (some 2) 2, .rsaInit 1 (some 3) 1]), _, _,
    ⟨afterP ⟨true, true, ops, H⟩ arrays (demoPair t), _, [.rsaInit 1 (some 3) 1], RSACipher.new 10, rfl, rfl, rfl, rfl, ?_⟩,
    ⟨afterP ⟨true, true, ops, H⟩ arrays (demoPair t ++ [.rsaInit 0 (some 2) 2]), _, [], RSACipher.new 10, rfl, rfl, rfl, rfl, ?_⟩, rfl, rfl, rfl, rfl, rfl, rfl, rfl, rfl⟩
  all_goals simp [rsaInitOf]

end CW
end Verif.Props
