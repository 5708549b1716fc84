import Verif.Props.CardHistory3
/-! C120, continued: DES keys, key pairs and lists. -/
namespace Verif.Props
open Verif.Py Verif.Model Verif.Model.Card Verif.Spec Verif.Spec.Card

/-! ### DES keys -/

/-- The call, if it sets the DES key at `k`: the list and the offset. -/
def desKeyCall (k : Nat) (w : Card) : Step → Option (List Int × Int)
  | .setKey j r off => if j = k then (listAt w r).map fun l => (l, off) else none
  | _ => none

theorem desKey_step {env : CryptoEnv} {fuel : Nat} {w : Card} {k : Nat} {d : DESKey} (hd : w k = .key (.des d)) (s : Step) (e : Eff)
    (he : sem env fuel w s = some e) :
    (∀ op, desKeyCall k w s = some op → e.1 = .ok .nothing ∧ w.put e.2 k = .key (.des (d.setKey op.1 op.2))) ∧
    (desKeyCall k w s = none → w.put e.2 k = .key (.des d)) := by
  have hu : kind (w k) ∉ changes s → w.put e.2 k = .key (.des d) := fun h => by rw [unchanged he (by simp [hd, kind]) h, hd]
  cases s
  case buildKey j args =>
    simp only [sem, Option.some.injEq] at he
    subst he
    refine ⟨fun op h => by simp [desKeyCall] at h, fun _ => ?_⟩
    split
    · exact hd
    · exact hd
    · refine make_ind (P := fun e => w.put e.2 k = .key (.des d)) hd fun hj => ?_
      rw [put_one_ne _ _ (fun e => by rw [e, hd] at hj; simp at hj), hd]
  case setKey j r off =>
    simp only [sem, Option.some.injEq] at he
    subst he
    simp only [desKeyCall]
    rw [onArray_eq]
    cases hl : listAt w r with
    | none => exact ⟨fun op h => by split at h <;> simp at h, fun _ => hd⟩
    | some l =>
      by_cases hj : j = k
      · subst hj
        rw [if_pos rfl]
        refine ⟨fun op h => ?_, fun h => by simp at h⟩
        simp only [Option.map_some, Option.some.injEq] at h
        subst h
        simp only [Option.elim, hd]
        exact ⟨trivial, put_one _ _ _⟩
      · rw [if_neg hj]
        refine ⟨fun op h => by simp at h, fun _ => ?_⟩
        simp only [Option.elim]
        split
        · rw [put_one_ne _ _ hj, hd]
        · exact hd
        · exact hd
  all_goals exact ⟨fun op h => by simp [desKeyCall] at h, fun _ => hu (by simp [hd, kind, changes])⟩

theorem setKeys (d : DESKey) (h : List (List Int × Int)) : ∀ l off,
    (h ++ [(l, off)]).foldl (fun d op => d.setKey op.1 op.2) d =
      { d with initialized := true, key := some (arrayToBinary (slice l off (off + d.size / 8))) } := by
  have : ∀ (h : List (List Int × Int)) (d : DESKey), (h.foldl (fun d op => d.setKey op.1 op.2) d).size = d.size ∧
      (h.foldl (fun d op => d.setKey op.1 op.2) d).type = d.type := by
    intro h
    induction h with
    | nil => intro d; exact ⟨rfl, rfl⟩
    | cons a h ih => intro d; rw [List.foldl_cons]; exact ih _
  intro l off
  obtain ⟨h1, h2⟩ := this h d
  rw [List.foldl_append, List.foldl_cons, List.foldl_nil]
  generalize h.foldl (fun d op => d.setKey op.1 op.2) d = d' at h1 h2
  simp only [DESKey.setKey, h1, h2]

/-- **C120** (DES keys). On a card a DES key is as it was made until `setKey` is called on it; then it is initialized and holds the bytes the last such call was
given, as the list held them at that moment. Type and size never change, and `clearKey` does nothing. -/
theorem C120_des_key {env : CryptoEnv} {fuel : Nat} {w : Card} {prog : List Step} {outs : List (Except Err Card.Out)} {w' : Card}
    (h : run env fuel w prog = some (outs, w')) {k : Nat} {d : DESKey} (hd : w k = .key (.des d)) :
    ∃ q : DESKey, w' k = .key (.des q) ∧
    (historyOf (desKeyCall k) env fuel w prog = [] → q = d) ∧
    (∀ hist l off, historyOf (desKeyCall k) env fuel w prog = hist ++ [(l, off)] →
      q.initialized = true ∧ q.key = some (arrayToBinary (slice l off (off + d.size / 8)))) ∧
    step env fuel w' (.askKey k .isInitialized) = some (.ok (.bool q.initialized), w') ∧
    step env fuel w' (.askKey k .getSize) = some (.ok (.int d.size), w') ∧
    step env fuel w' (.askKey k .getType) = some (.ok (.int d.type), w') ∧
    step env fuel w' (.clearKey k) = some (.ok .nothing, w') ∧
    ∀ r off l, listAt w' r = some l → step env fuel w' (.setKey k r off) ≠ none ∧
      ∃ w'', step env fuel w' (.getKey k r off) = some ((q.getKey l off).1.map fun _ => .nothing, w'') ∧ listAt w'' r = some (q.getKey l off).2 := by
  have hq : w' k = .key (.des ((historyOf (desKeyCall k) env fuel w prog).foldl (fun d op => d.setKey op.1 op.2) d)) := by
    refine history_ind (desKeyCall k) (fun ops v => v k = .key (.des (ops.foldl (fun d op => d.setKey op.1 op.2) d))) ?_ prog [] w outs w' h hd
    intro ops v s e hv he
    have := desKey_step hv s e he
    cases hc : desKeyCall k v s with
    | none => simpa using this.2 hc
    | some op =>
      rw [(this.1 op hc).2]
      simp
  have hst : ∀ hist : List (List Int × Int), (hist.foldl (fun d op => d.setKey op.1 op.2) d).size = d.size ∧
      (hist.foldl (fun d op => d.setKey op.1 op.2) d).type = d.type := by
    intro hist
    rcases List.eq_nil_or_concat hist with rfl | ⟨h0, x, rfl⟩
    · exact ⟨rfl, rfl⟩
    · rw [List.concat_eq_append, setKeys]; exact ⟨rfl, rfl⟩
  obtain ⟨hs, ht⟩ := hst (historyOf (desKeyCall k) env fuel w prog)
  refine ⟨_, hq, fun h => by rw [h]; rfl, fun hist l off h => by rw [h, setKeys]; exact ⟨rfl, rfl⟩, ?_, ?_, ?_, ?_, fun r off l hl => ⟨?_, ?_⟩⟩
  · simp only [step, sem, hq, keyAsk, KeyObj.isInitialized, Option.map_some, put]
  · simp only [step, sem, hq, keyAsk, KeyObj.getSize, hs, Option.map_some, put]
  · simp only [step, sem, hq, keyAsk, KeyObj.getType, ht, Option.map_some, put]
  · simp only [step, sem, hq, Option.map_some, put]
  · simp only [step, sem, Option.map_some]; simp
  · exact ⟨_, by simp only [step, sem, onArray_eq, hl, Option.elim, hq, Option.map_some]; rfl, array_listAt (put_one _ _ _)⟩

/-! ### Key pairs -/

/-- The call, if it is a `genKeyPair` on the pair at `p` that succeeds: where the two new keys are. -/
def pairCall (env : CryptoEnv) (fuel : Nat) (p : Nat) (w : Card) (s : Step) : Option (Nat × Nat) :=
  match s with
  | .genKeyPair p' i j _ => if p' = p then match step env fuel w s with
    | some (.ok _, _) => some (i, j)
    | _ => none
    else none
  | _ => none

theorem pairRef_step {env : CryptoEnv} {fuel : Nat} {w : Card} {p : Nat} {q : PairRef} (hq : w p = .pair q) (s : Step) (e : Eff)
    (he : sem env fuel w s = some e) :
    w.put e.2 p = .pair (match pairCall env fuel p w s with
      | some op => { q with publicKey := op.1, privateKey := op.2 }
      | none => q) := by
  have hu : kind (w p) ∉ changes s → w.put e.2 p = .pair q := fun h => by rw [unchanged he (by simp [hq, kind]) h, hq]
  have hfree : ∀ j, w j = .free → p ≠ j := fun j hj e => by rw [← e, hq] at hj; simp at hj
  cases s
  case newPair p' i j alg len =>
    simp only [sem, Option.some.injEq] at he
    subst he
    simp only [pairCall]
    split
    · next hp hi hj =>
      split
      · exact hq
      · split
        · simp only [put]
          rw [if_neg (hfree _ hp), if_neg (hfree _ hj), if_neg (hfree _ hi), hq]
        · exact hq
    · exact hq
  case pairOf p' i j =>
    simp only [sem, Option.some.injEq] at he
    subst he
    simp only [pairCall]
    split
    · split
      · exact hq
      · refine make_ind (P := fun e => w.put e.2 p = .pair q) hq fun hj => ?_
        rw [put_one_ne _ _ (fun e => hfree _ hj e.symm), hq]
    · exact hq
  case genKeyPair p' i j t =>
    simp only [pairCall, step, he, Option.map_some]
    simp only [sem, Option.some.injEq] at he
    subst he
    by_cases hp : p' = p
    · subst hp
      rw [if_pos rfl]
      split
      · next q0 hd hi hj =>
        rw [hq] at hd
        injection hd with hd; subst hd
        split
        · split
          · exact hq
          · unfold genPair
            split
            · exact hq
            · split
              · exact hq
              · split
                · next alg len h1 h2 =>
                  split
                  · exact hq
                  · simp only [put, if_true]
                    obtain ⟨qa, qb, qc, qd⟩ := q
                    simp only at h1 h2
                    rw [h1, h2]
                · exact hq
        · exact hq
      · exact hq
    · rw [if_neg hp]
      simp only
      split
      · next hp' hi hj =>
        split
        · split
          · exact hq
          · unfold genPair
            split
            · exact hq
            · split
              · exact hq
              · split
                · split
                  · exact hq
                  · simp only [put]
                    rw [if_neg (Ne.symm hp), if_neg (hfree _ hj), if_neg (hfree _ hi), hq]
                · exact hq
        · exact hq
      · exact hq
  all_goals
    simp only [pairCall]
    exact hu (by simp [hq, kind, changes])

/-- **C120** (key pairs). On a card `getPublic` and `getPrivate` return the two key objects the pair was made from, always the same ones, until a `genKeyPair` on
that pair succeeds; from then on the two new ones of the last such call. Algorithm and key length never change. -/
theorem C120_pair {env : CryptoEnv} {fuel : Nat} {w : Card} {prog : List Step} {outs : List (Except Err Card.Out)} {w' : Card}
    (h : run env fuel w prog = some (outs, w')) {p : Nat} {q : PairRef} (hq : w p = .pair q) :
    let keys := (historyOf (pairCall env fuel p) env fuel w prog).getLast?.getD (q.publicKey, q.privateKey)
    w' p = .pair ⟨q.algorithm, q.keylength, keys.1, keys.2⟩ ∧
    step env fuel w' (.getPublic p) = some (.ok (.ref keys.1), w') ∧ step env fuel w' (.getPrivate p) = some (.ok (.ref keys.2), w') := by
  intro keys
  have hq' : w' p = .pair ⟨q.algorithm, q.keylength, keys.1, keys.2⟩ := by
    refine history_ind (pairCall env fuel p) (fun ops v => v p = .pair ⟨q.algorithm, q.keylength, (ops.getLast?.getD (q.publicKey, q.privateKey)).1,
      (ops.getLast?.getD (q.publicKey, q.privateKey)).2⟩) ?_ prog [] w outs w' h hq
    intro ops v s e hv he
    have := pairRef_step hv s e he
    rw [this]
    cases hc : pairCall env fuel p v s with
    | none => simp
    | some op => simp
  refine ⟨hq', ?_, ?_⟩
  · simp only [step, sem, hq', Option.map_some, put]
  · simp only [step, sem, hq', Option.map_some, put]

/-- `KeyPair(algorithm, length)` makes a public and a private key of that length, not initialized; `KeyPair(public, private)` keeps the two key objects it is given
and takes only a public and a private RSA key, in that order. -/
theorem C120_pair_new {env : CryptoEnv} {fuel : Nat} {w : Card} {p i j : Nat} (hp : w p = .free) :
    (∀ alg len, w i = .free → w j = .free → p ≠ i → p ≠ j → i ≠ j →
      ((alg = 1 ∨ alg = 2) → ∃ w1, step env fuel w (.newPair p i j alg len) = some (.ok (.ref p), w1) ∧ w1 p = .pair ⟨some alg, some len, i, j⟩ ∧
        w1 i = .key (.rsa (RSAKey.new true len)) ∧ w1 j = .key (.rsa (RSAKey.new false len))) ∧
      (¬ (alg = 1 ∨ alg = 2) → step env fuel w (.newPair p i j alg len) = some (.error NO_SUCH_ALGORITHM, w))) ∧
    ∀ x y, w i = .key x → w j = .key y →
      ((∃ a b : RSAKey, x = .rsa a ∧ y = .rsa b ∧ a.isPublic = true ∧ b.isPublic = false) →
        ∃ w1, step env fuel w (.pairOf p i j) = some (.ok (.ref p), w1) ∧ w1 p = .pair ⟨none, none, i, j⟩ ∧ w1 i = w i ∧ w1 j = w j) ∧
      (¬ (∃ a b : RSAKey, x = .rsa a ∧ y = .rsa b ∧ a.isPublic = true ∧ b.isPublic = false) →
        step env fuel w (.pairOf p i j) = some (.error ILLEGAL_VALUE, w)) := by
  constructor
  · intro alg len hi hj h1 h2 h3
    have hne : ¬ (p = i ∨ p = j ∨ i = j) := by rintro (h | h | h) <;> contradiction
    constructor
    · intro ha
      refine ⟨w.put [(i, .key (.rsa (RSAKey.new true len))), (j, .key (.rsa (RSAKey.new false len))), (p, .pair ⟨some alg, some len, i, j⟩)], ?_, ?_, ?_, ?_⟩
      · simp only [step, sem, hp, hi, hj, if_neg hne, if_pos ha, Option.map_some]
      · simp [put]
      · simp only [put]; rw [if_neg (Ne.symm h1), if_neg h3]; simp
      · simp only [put]; rw [if_neg (Ne.symm h2)]; simp
    · intro ha
      simp only [step, sem, hp, hi, hj, if_neg hne, if_neg ha, Option.map_some, put]
  · intro x y hx hy
    constructor
    · rintro ⟨a, b, rfl, rfl, h1, h2⟩
      have hpi : i ≠ p := fun e => by rw [e, hp] at hx; simp at hx
      have hpj : j ≠ p := fun e => by rw [e, hp] at hy; simp at hy
      refine ⟨w.put [(p, .pair ⟨none, none, i, j⟩)], ?_, put_one _ _ _, put_one_ne _ _ (Ne.symm hpi), put_one_ne _ _ (Ne.symm hpj)⟩
      simp [step, sem, hx, hy, KeyPair.ofKeys, h1, h2, make, hp]
    · intro hn
      have : KeyPair.ofKeys x y = .error ILLEGAL_VALUE := by
        unfold KeyPair.ofKeys
        split
        · next a =>
          split
          · rfl
          · next ha =>
            split
            · next b =>
              split
              · rfl
              · next hb => exact absurd ⟨a, b, rfl, rfl, by simpa using ha, by simpa using hb⟩ hn
            · rfl
        · rfl
      simp only [step, sem, hx, hy, this, Option.map_some, put]

/-! ### Lists -/

/-- **C120** (indexing). Reading a cell of a list: from the front, from the back, or the `IndexError`; the card stays as it is. -/
theorem C120_load {env : CryptoEnv} {fuel : Nat} {w : Card} {r : Nat} {l : List Int} (hl : listAt w r = some l) :
    (∀ k : Nat, (h : k < l.length) → step env fuel w (.load r k) = some (.ok (.int l[k]), w) ∧
      step env fuel w (.load r ((k : Int) - l.length)) = some (.ok (.int l[k]), w)) ∧
    ∀ i : Int, i < -(l.length : Int) ∨ (l.length : Int) ≤ i → step env fuel w (.load r i) = some (.error .indexError, w) := by
  refine ⟨fun k hk => ⟨?_, ?_⟩, fun i hi => ?_⟩
  · simp only [step, sem, onArray_eq, hl, Option.elim, get_natCast _ _ hk, Except.map, Option.map_some, put]
  · have : Verif.Py.get l ((k : Int) - l.length) = .ok l[k] := by
      unfold Verif.Py.get idx
      rw [if_neg (by omega), if_pos (by omega)]
      have hz : ((k : Int) - l.length + l.length).toNat = k := by omega
      simp only [hz, List.getElem?_eq_getElem hk]
    simp only [step, sem, onArray_eq, hl, Option.elim, this, Except.map, Option.map_some, put]
  · have : Verif.Py.get l i = .error .indexError := by
      unfold Verif.Py.get idx
      rcases hi with hi | hi
      · rw [if_neg (by omega), if_neg (by omega)]
      · rw [if_pos (by omega), if_neg (by omega)]
    simp only [step, sem, onArray_eq, hl, Option.elim, this, Except.map, Option.map_some, put]

/-- A cell nothing writes to is read the same later, from the front and from the back. -/
theorem load_later {env : CryptoEnv} {fuel : Nat} (hH : ∀ alg m, (env.hash alg m).length = (env.hash alg []).length) {w w' : Card}
    {prog : List Step} {outs : List (Except Err Card.Out)} (h : run env fuel w prog = some (outs, w')) {r k : Nat} {l : List Int} {v : Int}
    (hl : listAt w r = some l) (hv : l[k]? = some v) (hu : Untouched env fuel w prog r k 1) :
    step env fuel w' (.load r k) = some (.ok (.int v), w') ∧ step env fuel w' (.load r ((k : Int) - l.length)) = some (.ok (.int v), w') := by
  have hk : k < l.length := (List.getElem?_eq_some_iff.1 hv).1
  obtain ⟨l', h1, h2, h3, _⟩ := untouched_range hH h (n := 1) (by omega) hl (by omega) hu
  have h4 := h3 0 (by omega)
  rw [Nat.add_zero, hv] at h4
  obtain ⟨hk', hv'⟩ := List.getElem?_eq_some_iff.1 h4
  have := (C120_load (env := env) (fuel := fuel) h1).1 k hk'
  rw [hv', h2] at this
  exact this

/-- **C120** (list literals). A new list has the cells it was written with. -/
theorem C120_literal {env : CryptoEnv} {fuel : Nat} (hH : ∀ alg m, (env.hash alg m).length = (env.hash alg []).length) {w w1 w' : Card} {r : Nat}
    {cells : List Int} (h1 : step env fuel w (.newArray r cells) = some (.ok (.ref r), w1)) {prog : List Step} {outs : List (Except Err Card.Out)}
    (h : run env fuel w1 prog = some (outs, w')) {k : Nat} (hk : k < cells.length) (hu : Untouched env fuel w1 prog r k 1) :
    step env fuel w' (.load r k) = some (.ok (.int cells[k]), w') ∧ step env fuel w' (.load r ((k : Int) - cells.length)) = some (.ok (.int cells[k]), w') := by
  obtain ⟨e, he, ho, rfl⟩ := step_sem h1
  simp only [sem, Option.some.injEq] at he
  subst he
  unfold make at ho h hu
  split at ho
  · next hf =>
    have hl : listAt (w.put [(r, .array cells)]) r = some cells := array_listAt (put_one _ _ _)
    simp only [hf] at h hu
    exact load_later hH h hl (List.getElem?_eq_getElem hk) hu
  · simp [wrong] at ho

/-- **C120** (assignments). `l[i] = v` raises `IndexError` exactly when there is no such cell; else it can be read back later, from the front and from the back. -/
theorem C120_store {env : CryptoEnv} {fuel : Nat} (hH : ∀ alg m, (env.hash alg m).length = (env.hash alg []).length) {w : Card} {r : Nat}
    {l : List Int} (hl : listAt w r = some l) (v : Int) :
    (∀ i : Int, i < -(l.length : Int) ∨ (l.length : Int) ≤ i → step env fuel w (.store r i v) = some (.error .indexError, w)) ∧
    ∀ k : Nat, k < l.length → ∀ i : Int, i = k ∨ i = (k : Int) - l.length → ∃ w1, step env fuel w (.store r i v) = some (.ok .nothing, w1) ∧
      listAt w1 r = some (l.set k v) ∧
      ∀ prog outs w', run env fuel w1 prog = some (outs, w') → Untouched env fuel w1 prog r k 1 →
        step env fuel w' (.load r k) = some (.ok (.int v), w') ∧ step env fuel w' (.load r ((k : Int) - l.length)) = some (.ok (.int v), w') := by
  constructor
  · intro i hi
    have : Verif.Py.set l i v = .error .indexError := by
      unfold Verif.Py.set idx
      rcases hi with hi | hi
      · rw [if_neg (by omega), if_neg (by omega)]
      · rw [if_pos (by omega), if_neg (by omega)]
    simp only [step, sem, onArray_eq, hl, Option.elim, this, Option.map_some, put]
  · intro k hk i hi
    have : Verif.Py.set l i v = .ok (l.set k v) := by
      rcases hi with rfl | rfl
      · exact set_natCast _ _ _ hk
      · unfold Verif.Py.set idx
        rw [if_neg (by omega), if_pos (by omega)]
        have hz : ((k : Int) - l.length + l.length).toNat = k := by omega
        simp only [hz]
    have hl1 : listAt (w.put [(r, .array (l.set k v))]) r = some (l.set k v) := array_listAt (put_one _ _ _)
    refine ⟨_, by simp only [step, sem, onArray_eq, hl, Option.elim, this, Option.map_some], hl1, fun prog outs w' h hu => ?_⟩
    have := load_later hH h (k := k) (v := v) hl1 (List.getElem?_set_self hk) hu
    rw [List.length_set] at this
    exact this

/-- **C120** (filling). `arrayFillNonAtomic` on a range inside the list succeeds, and every cell of the range is read back later. -/
theorem C120_fill {env : CryptoEnv} {fuel : Nat} (hH : ∀ alg m, (env.hash alg m).length = (env.hash alg []).length) {w : Card} {r : Nat}
    {l : List Int} (hl : listAt w r = some l) {off n : Nat} (h : off + n ≤ l.length) (v : Int) :
    ∃ w1, step env fuel w (.arrayFill r off n v) = some (.ok .nothing, w1) ∧
      ∀ prog outs w', run env fuel w1 prog = some (outs, w') → ∀ k, off ≤ k → k < off + n → Untouched env fuel w1 prog r k 1 →
        step env fuel w' (.load r k) = some (.ok (.int v), w') := by
  obtain ⟨h1, h2⟩ := C09_fill l off n v h
  refine ⟨w.put [(r, .array (Util.arrayFillNonAtomic l off n v).2)], ?_, fun prog outs w' hr k h3 h4 hu => ?_⟩
  · simp only [step, sem, onArray_eq, hl, Option.elim, arrayTo, h1, Except.map, Option.map_some]
  · refine (load_later hH hr (array_listAt (put_one _ _ _)) ?_ hu).1
    have := h2.2.2.1 (k - off) (by simp; omega)
    rw [show off + (k - off) = k by omega] at this
    rw [this]; simp

/-- **C120** (comparing). `arrayCompare` on two lists of a card, or twice the same: 0 when the two ranges are equal as they are now, else the sign of the first
difference; the card stays as it is. -/
theorem C120_compare {env : CryptoEnv} {fuel : Nat} {w : Card} {s d : Nat} {a b : List Int} (ha : listAt w s = some a) (hb : listAt w d = some b)
    {so dOff n : Nat} (h1 : so + n ≤ a.length) (h2 : dOff + n ≤ b.length) :
    (range a so n = range b dOff n ∧ step env fuel w (.arrayCompare s so d dOff n) = some (.ok (.int 0), w)) ∨
    ∃ k x y, k < n ∧ range a so k = range b dOff k ∧ a[so + k]? = some x ∧ b[dOff + k]? = some y ∧
      ((y < x ∧ step env fuel w (.arrayCompare s so d dOff n) = some (.ok (.int 1), w)) ∨
       (x < y ∧ step env fuel w (.arrayCompare s so d dOff n) = some (.ok (.int (-1)), w))) := by
  have hs : step env fuel w (.arrayCompare s so d dOff n) = some ((Util.arrayCompare a so b dOff n).map .int, w) := by
    simp only [step, sem, onArray_eq, ha, hb, Option.elim, Option.map_some, put]
  rw [hs]
  rcases C04_arrayCompare a b so dOff n h1 h2 with ⟨h, h'⟩ | ⟨k, x, y, hk, hr, hx, hy, h⟩
  · exact .inl ⟨h', by rw [h]; rfl⟩
  · refine .inr ⟨k, x, y, hk, hr, hx, hy, ?_⟩
    rcases h with ⟨h, h'⟩ | ⟨h, h'⟩
    · exact .inl ⟨h, by rw [h']; rfl⟩
    · exact .inr ⟨h, by rw [h']; rfl⟩

/-! ### Numbers and RSA keys -/

/-- **C120** (comparing numbers). Two numbers of a card that were given a value compare as these values; the card stays as it is. -/
theorem C120_numbers {env : CryptoEnv} {fuel : Nat} {w : Card} {b c : Nat} {x y : BigNumber} (hb : w b = .big x) (hc : w c = .big y) {m n : Int}
    (hm : x.value = some m) (hn : y.value = some n) :
    step env fuel w (.bigCompare b c) = some (.ok (.int (if m = n then 0 else if n < m then 1 else -1)), w) := by
  have : x.compareTo y = .ok (if m = n then 0 else if n < m then 1 else -1) := by
    unfold BigNumber.compareTo
    rw [hm, hn]
    by_cases h : m = n
    · rw [if_pos (by rw [h]), if_pos h]
    · rw [if_neg (by simpa using h), if_neg h]
      show (if m > n then _ else _) = _
      by_cases h' : n < m
      · rw [if_pos h', if_pos h']
      · rw [if_neg h', if_neg h']
  simp only [step, sem, hb, hc, this, Except.map, Option.map_some, put]

/-- A number against a list, or `None`: as the number says. -/
theorem C120_number_array {env : CryptoEnv} {fuel : Nat} {w : Card} {b : Nat} {x : BigNumber} (hb : w b = .big x) {r : Option Nat} {l : Option (List Int)}
    (hl : optListAt w r = some l) (off len fmt : Int) :
    step env fuel w (.bigCompareArray b r off len fmt) = some ((x.compareToArray l off len fmt).map .int, w) := by
  simp only [step, sem, onOptArray_eq, hl, Option.elim, hb, Option.map_some, put]

theorem rsa_fixed_step (pc ls : Bool) (k : RSAKey) (op : RSAKey.Op) : (k.step pc ls op).2.size = k.size ∧ (k.step pc ls op).2.type = k.type := by
  have ha : ∀ k : RSAKey, (RSAKey.afterSet pc k).2.size = k.size ∧ (RSAKey.afterSet pc k).2.type = k.type := by
    intro k
    unfold RSAKey.afterSet
    repeat' split
    all_goals exact ⟨rfl, rfl⟩
  cases op with
  | setExponent b o l => exact ha _
  | setModulus b o l =>
    simp only [RSAKey.step, RSAKey.setModulus]
    split
    · exact ⟨rfl, rfl⟩
    · exact ha _
  | setTheKey t => exact ha _
  | clearKey => exact ⟨rfl, rfl⟩

/-- **C120** (RSA keys). Size and type of an RSA key never change. -/
theorem C120_rsa_key {env : CryptoEnv} {fuel : Nat} {w : Card} {prog : List Step} {outs : List (Except Err Card.Out)} {w' : Card}
    (h : run env fuel w prog = some (outs, w')) {k : Nat} {x : RSAKey} (hx : w k = .key (.rsa x)) :
    step env fuel w' (.askKey k .getSize) = some (.ok (.int x.size), w') ∧ step env fuel w' (.askKey k .getType) = some (.ok (.int x.type), w') := by
  have hq := (C116_key h hx).1
  have hr : ∀ (ops : List RSAKey.Op) (x : RSAKey), (x.run env.pycrypto env.longSuffix ops).size = x.size ∧ (x.run env.pycrypto env.longSuffix ops).type = x.type := by
    intro ops
    induction ops with
    | nil => intro x; exact ⟨rfl, rfl⟩
    | cons op ops ih =>
      intro x
      have h1 := ih (x.step env.pycrypto env.longSuffix op).2
      have h2 := rsa_fixed_step env.pycrypto env.longSuffix x op
      exact ⟨h1.1.trans h2.1, h1.2.trans h2.2⟩
  obtain ⟨h1, h2⟩ := hr (historyOf (keyCall k) env fuel w prog) x
  constructor
  · simp only [step, sem, hq, keyAsk, KeyObj.getSize, h1, Option.map_some, put]
  · simp only [step, sem, hq, keyAsk, KeyObj.getType, h2, Option.map_some, put]

/-! ### New objects -/

/-- A call makes an object at `r`, or raises, or returns `None`. -/
def Makes (env : CryptoEnv) (fuel : Nat) (w : Card) (s : Step) (r : Nat) (x : Except Err (Option Obj)) : Prop :=
  (∀ e, x = .error e → step env fuel w s = some (.error e, w)) ∧
  (x = .ok none → step env fuel w s = some (.ok .nothing, w)) ∧
  ∀ o, x = .ok (some o) → ∃ w', step env fuel w s = some (.ok (.ref r), w') ∧ w' r = o ∧ ∀ i, i ≠ r → w' i = w i

theorem makes {env : CryptoEnv} {fuel : Nat} {w : Card} {s : Step} {r : Nat} {x : Except Err (Option Obj)}
    (h : sem env fuel w s = some (match x with
      | .error e => (.error e, [])
      | .ok none => (.ok .nothing, [])
      | .ok (some o) => (.ok (.ref r), [(r, o)]))) : Makes env fuel w s r x := by
  refine ⟨fun e hx => ?_, fun hx => ?_, fun o hx => ⟨w.put [(r, o)], ?_, put_one _ _ _, fun i hi => put_one_ne _ _ (Ne.symm hi)⟩⟩
  · subst hx; simp only [step, h, Option.map_some, put]
  · subst hx; simp only [step, h, Option.map_some, put]
  · subst hx; simp only [step, h, Option.map_some]

/-- **C120** (new objects). What a constructor or `getInstance` makes on a card depends on its arguments only, not on any object there, and nothing else changes. -/
theorem C120_new {env : CryptoEnv} {fuel : Nat} {w : Card} {r : Nat} (hr : w r = .free) :
    (∀ l, Makes env fuel w (.newArray r l) r (.ok (some (.array l)))) ∧
    (∀ c, Makes env fuel w (.newTag r c) r (.ok (some (.tag (BERTag.new c))))) ∧
    (∀ c, Makes env fuel w (.newTLV r c) r (.ok (some (.tlv ⟨c, none, 0, none⟩)))) ∧
    (∀ args, Makes env fuel w (.buildKey r args) r ((Model.buildKey args).map (Option.map .key))) ∧
    (∀ args, Makes env fuel w (.getCipher r args) r ((cipherGetInstance args).map fun x => some (match x.1 with
      | .des => .des (DESCipher.new x.2.algorithm)
      | .rsa => .rsa (RSACipher.new x.2.algorithm)))) ∧
    (∀ alg, Makes env fuel w (.getDigest r alg) r ((MessageDigest.getInstance alg).map fun d => some (.digest d))) ∧
    (∀ limit size, Makes env fuel w (.newPIN r limit size) r (.ok (some (.pin (OwnerPIN.init limit size))))) ∧
    ∀ m, Makes env fuel w (.newBig r m) r ((BigNumber.new m).map fun b => some (.big b)) := by
  refine ⟨fun l => makes ?_, fun c => makes ?_, fun c => makes ?_, fun args => makes ?_, fun args => makes ?_, fun alg => makes ?_, fun m n => makes ?_, fun m => makes ?_⟩
  · simp only [sem, make, hr]
  · simp only [sem, make, hr]
  · simp only [sem, make, hr]; rfl
  · simp only [sem, make, hr]
    rcases Model.buildKey args with e | ⟨_ | o⟩ <;> rfl
  · simp only [sem, make, hr]
    rcases cipherGetInstance args with e | ⟨_ | _, b⟩ <;> rfl
  · simp only [sem, makeOr, make, hr]
    rcases MessageDigest.getInstance alg with e | o <;> rfl
  · simp only [sem, make, hr]
  · simp only [sem, makeOr, make, hr]
    rcases BigNumber.new m with e | o <;> rfl

/-! ### Examples -/

private def env4 : CryptoEnv := ⟨true, true, ⟨fun _ _ => .error .typeError, fun _ _ => .error .typeError⟩, fun _ _ => [1, 2, 3]⟩

private def busy : List Step :=
  [.newArray 1 [0, 1, 2, 3, 4, 5, 6, 7], .newArray 30 [0x45], .newTag 2 false, .tagInitArray 2 30 0, .newTLV 3 false, .tlvInit 3 4 2 1 1 3, .tagInitNumber 2 3 9, .store 1 2 9,
   .newAID 5 1 0 5, .buildKey 6 [3, 64, 0], .setKey 6 1 0, .store 1 0 7, .newTLV 7 true, .tagInitNumber 4 2 6, .newTag 8 true, .tagInitNumber 8 1 1,
   .tlvInit 7 9 8 1 0 0, .append 7 3, .newPair 10 11 12 1 512, .genKeyPair 10 13 14 ⟨3233, 17, 413⟩]

private def asked : Option (List (Except Err Card.Out)) :=
  ((run env4 10 blank busy).bind fun x => run env4 10 x.2
    [.tlvSize 3, .getTag 3, .newArray 20 [0, 0, 0, 0, 0, 0, 0, 0], .tlvToBytes 3 20 0, .load 20 1, .load 20 3, .load 20 (-5), .tagEquals 2 4, .aidEquals 5 1 0 5,
      .getKey 6 20 0, .load 20 0, .load 20 2, .askKey 6 .getSize, .tlvToBytes 7 20 0, .load 20 2, .getPublic 10, .getPrivate 10, .load 20 8]).map (·.1)

/-- A TLV whose value was given before its list changed and whose tag object was changed afterwards; a DES key and an AID made from the same list; an appended
TLV; a key pair that was generated. -/
example : asked = some [.ok (.int 5), .ok (.ref 4), .ok (.ref 20), .ok (.int 5), .ok (.int 3), .ok (.int 2), .ok (.int 2), .ok (.bool false), .ok (.bool false),
    .ok .nothing, .ok (.int 0), .ok (.int 9), .ok (.int 64), .ok (.int 7), .ok (.int (-122)), .ok (.ref 13), .ok (.ref 14), .error .indexError] := by
  decide +kernel

end Verif.Props
