import Verif.Props.TLV2
/-! C88: nested TLVs of any depth. -/
namespace Verif.Props
open Verif.Py Verif.Model Verif.Spec

/-- The node at the root of a tree: its value is the encoding of the children. -/
def RootNode : Tree → Node → Prop
  | .leaf c k v, n => n = ⟨c, false, k, v⟩
  | .node c k cs, n => n.cls = c ∧ n.constructed = true ∧ n.num = k ∧ EncodesForest cs n.value

/-- What the accessors of a TLV object holding the tree report. -/
def IsTree (t : BERTLV) (tree : Tree) : Prop := ∃ n, RootNode tree n ∧ IsNode t n

theorem encodesTree_iff (t : Tree) (l : List Int) : EncodesTree t l ↔ ∃ n, RootNode t n ∧ Encodes n l := by
  cases t with
  | leaf c k v =>
    rw [EncodesTree]
    exact ⟨fun h => ⟨_, rfl, h⟩, fun ⟨n, h, e⟩ => by have h : n = _ := h; subst h; exact e⟩
  | node c k cs =>
    rw [EncodesTree]
    constructor
    · rintro ⟨v, h, e⟩; exact ⟨_, ⟨rfl, rfl, rfl, h⟩, e⟩
    · rintro ⟨⟨c', b, k', v⟩, ⟨rfl, h, rfl, hf⟩, e⟩
      have h : b = true := h
      subst h; exact ⟨v, hf, e⟩

/-- Corresponding trees and nodes. -/
inductive Roots : List Tree → List Node → Prop
  | nil : Roots [] []
  | cons {t n ts ns} (h : RootNode t n) (hs : Roots ts ns) : Roots (t :: ts) (n :: ns)

theorem encodesForest_nodes (ts : List Tree) (l : List Int) (h : EncodesForest ts l) : ∃ ns, Roots ts ns ∧ EncodesAll ns l := by
  induction ts generalizing l with
  | nil => rw [EncodesForest] at h; exact ⟨[], .nil, h⟩
  | cons t ts ih =>
    rw [EncodesForest] at h
    obtain ⟨a, b, rfl, h1, h2⟩ := h
    obtain ⟨n, hn, he⟩ := (encodesTree_iff t a).1 h1
    obtain ⟨ns, hr, ha⟩ := ih b h2
    exact ⟨n :: ns, .cons hn hr, a, b, rfl, he, ha⟩

theorem roots_length {ts : List Tree} {ns : List Node} (h : Roots ts ns) : ts.length = ns.length := by
  induction h with
  | nil => rfl
  | cons _ _ ih => simp [ih]

theorem rootNode_tag {t : Tree} {n : Node} (h : RootNode t n) : t.tag = (n.cls, n.constructed, n.num) := by
  cases t with
  | leaf c k v => have h : n = _ := h; subst h; rfl
  | node c k cs => obtain ⟨rfl, h2, rfl, _⟩ := h; simp [Tree.tag, h2]

theorem roots_find {ts : List Tree} {ns : List Node} (h : Roots ts ns) (cls num : Nat) (c : Bool) :
    match ts.find? (fun t => decide (t.tag = (cls, c, num))) with
    | none => ns.find? (HasTag cls num c) = none
    | some t => ∃ n, ns.find? (HasTag cls num c) = some n ∧ RootNode t n := by
  induction h with
  | nil => rfl
  | @cons t n ts ns hr _ ih =>
    have e : decide (t.tag = (cls, c, num)) = HasTag cls num c n := by
      rw [rootNode_tag hr]; unfold HasTag; rw [Bool.eq_iff_iff]; simp [and_assoc]
    rw [List.find?_cons, List.find?_cons, e]
    cases hh : HasTag cls num c n with
    | true => exact ⟨n, rfl, hr⟩
    | false => exact ih

/-! ### Searching -/

/-- A client: follow a path of tags, `t.find(w)` at every step, stopping with None when a step finds nothing. -/
def findPath (t : BERTLV) : List BERTag → Nat → Option (Except Err (Option BERTLV))
  | [], _ => some (.ok (some t))
  | w :: ws, fuel =>
    match t.find (some w) fuel with
    | none => none
    | some (.error e) => some (.error e)
    | some (.ok none) => some (.ok none)
    | some (.ok (some r)) => findPath r ws fuel

/-- The tag objects `ws` have the tags `ps`. -/
inductive AreTags : List BERTag → List (Nat × Bool × Nat) → Prop
  | nil : AreTags [] []
  | cons {w cls c num ws ps} (h : IsTag w cls c num) (hs : AreTags ws ps) : AreTags (w :: ws) ((cls, c, num) :: ps)

theorem forest_length (ts : List Tree) (v : List Int) (h : EncodesForest ts v) : 2 * ts.length ≤ v.length := by
  induction ts generalizing v with
  | nil => simp
  | cons t ts ih =>
    rw [EncodesForest] at h
    obtain ⟨a, b, rfl, h1, h2⟩ := h
    obtain ⟨n, _, he⟩ := (encodesTree_iff t a).1 h1
    have := BERTLV.encodes_length he
    have := ih b h2
    simp; omega

/-- C88. Following a path of tags of any length in a TLV object that holds a tree of any depth: every search finishes, and the
path leads to the object holding the data object it leads to in the tree (the first matching child at every step), to None where
a child is missing, and to AttributeError where a child of a primitive object is wanted. (128 iterations are enough for every search.) -/
theorem C88_findPath (tree : Tree) (t : BERTLV) (h : IsTree t tree) (h127 : t.length ≤ 127) (ws : List BERTag) (ps : List (Nat × Bool × Nat))
    (hw : AreTags ws ps) (fuel : Nat) (hf : 128 ≤ fuel) :
    match lookup tree ps with
    | .found u => ∃ r, findPath t ws fuel = some (.ok (some r)) ∧ IsTree r u
    | .missing => findPath t ws fuel = some (.ok none)
    | .primitive => findPath t ws fuel = some (.error .attributeError) := by
  induction hw generalizing tree t with
  | nil => cases tree <;> exact ⟨t, rfl, h⟩
  | @cons w cls c num ws ps hi hs ih =>
    obtain ⟨n, hn, hisn⟩ := h
    cases tree with
    | leaf c' k v =>
      have hn : n = _ := hn
      subst hn
      simp only [lookup, findPath]
      rw [(C43_primitive t hisn.1 (some w) t 0 fuel).1]
    | node c' k cs =>
      obtain ⟨rfl, hc, rfl, hfor⟩ := hn
      obtain ⟨ns, hr, ha⟩ := encodesForest_nodes cs n.value hfor
      obtain ⟨h1, _, h3, h4, _⟩ := hisn
      have hlen := forest_length cs n.value hfor
      have hrl := roots_length hr
      have hfind := C43_find t (by rw [h1, hc]) n.value h4 h3 ns ha w cls num c hi fuel (by omega)
      have hrf := roots_find hr cls num c
      simp only [lookup, findPath]
      cases hl : cs.find? (fun t => decide (t.tag = (cls, c, num))) with
      | none =>
        rw [hl] at hrf
        rw [show ns.find? (HasTag cls num c) = none from hrf] at hfind
        rw [show t.find (some w) fuel = _ from hfind]
      | some u =>
        rw [hl] at hrf
        obtain ⟨m, hm, hrm⟩ := hrf
        rw [hm] at hfind
        obtain ⟨r, hr1, hr2⟩ := hfind
        rw [hr1]
        have hmem : m.value.length ≤ 127 := by
          have hm' := List.mem_of_find?_eq_some hm
          have : ∀ (ns : List Node) (l : List Int), EncodesAll ns l → ∀ x ∈ ns, x.value.length ≤ 127 := by
            intro ns
            induction ns with
            | nil => intro l _ x hx; cases hx
            | cons y ns ih =>
              rintro l ⟨a, b, rfl, he, hb⟩ x hx
              rcases List.mem_cons.1 hx with rfl | hx
              · exact he.2.2.1
              · exact ih b hb x hx
          exact this ns _ ha m hm'
        exact ih u r ⟨m, hrm, hr2⟩ (by rw [hr2.2.2.1]; omega)

/-- C88. Reading the root at an offset gives an object that holds the tree. -/
theorem C88_getInstance (tree : Tree) (arr : List Int) (o : Nat) (enc rest : List Int) (hd : arr.drop o = enc ++ rest) (he : EncodesTree tree enc) :
    ∃ t, BERTLV.getInstance arr o none = .ok t ∧ IsTree t tree ∧ t.length ≤ 127 ∧ t.size = .ok (enc.length : Int) := by
  obtain ⟨n, hn, he⟩ := (encodesTree_iff tree enc).1 he
  obtain ⟨t, h1, h2, h3⟩ := C40_decode arr o n enc rest hd he
  exact ⟨t, h1, ⟨n, hn, h2⟩, by rw [h2.2.2.1]; have := he.2.2.1; omega, h3⟩

/-! ### Reading everything -/

mutual
/-- A client that reads the whole data object at offset `o` of an array and the offset after it: `getInstance`, then for a primitive
TLV `getValue` into a new list of `getLength()` cells, for a constructed one the data objects from where its value starts
(`size() - getLength()` further) to where it ends. -/
def readAt (arr : List Int) : Nat → Int → Option (Except Err (Tree × Int))
  | 0, _ => none
  | f + 1, o =>
    match BERTLV.getInstance arr o none with
    | .error e => some (.error e)
    | .ok t =>
      match t.tag, t.size with
      | some tag, .ok n =>
        if t.constructed then
          match readSeq arr f (o + n - t.length) (o + n) with
          | none => none
          | some (.error e) => some (.error e)
          | some (.ok cs) => some (.ok (.node (tag.tagClass.getD 0).toNat (tag.tagNumber.getD 0).toNat cs, o + n))
        else
          match t.getValue (fresh t.length 0) 0 with
          | (.error e, _) => some (.error e)
          | (.ok _, v) => some (.ok (.leaf (tag.tagClass.getD 0).toNat (tag.tagNumber.getD 0).toNat v, o + n))
      | none, _ => some (.error .attributeError)
      | _, .error e => some (.error e)
/-- The data objects from offset `o` to offset `e`. -/
def readSeq (arr : List Int) : Nat → Int → Int → Option (Except Err (List Tree))
  | 0, _, _ => none
  | f + 1, o, e =>
    if o < e then
      match readAt arr f o with
      | none => none
      | some (.error x) => some (.error x)
      | some (.ok (t, o')) =>
        match readSeq arr f o' e with
        | none => none
        | some (.error x) => some (.error x)
        | some (.ok ts) => some (.ok (t :: ts))
    else some (.ok [])
end

theorem read_all (arr : List Int) (f : Nat) :
    (∀ (tree : Tree) (o : Nat) (enc rest : List Int), arr.drop o = enc ++ rest → EncodesTree tree enc → enc.length ≤ f →
      readAt arr f o = some (.ok (tree, ((o + enc.length : Nat) : Int)))) ∧
    (∀ (ts : List Tree) (o : Nat) (v rest : List Int), arr.drop o = v ++ rest → EncodesForest ts v → v.length + 1 ≤ f →
      readSeq arr f o ((o + v.length : Nat) : Int) = some (.ok ts)) := by
  induction f with
  | zero =>
    refine ⟨?_, fun _ _ _ _ _ _ h => by omega⟩
    intro tree o enc rest _ he hl
    obtain ⟨n, _, he⟩ := (encodesTree_iff tree enc).1 he
    have := BERTLV.encodes_length he
    omega
  | succ f ih =>
    constructor
    · intro tree o enc rest hd he hl
      obtain ⟨n, hn, he⟩ := (encodesTree_iff tree enc).1 he
      have hen := BERTLV.encodes_length he
      have hsz := BERTLV.ofNode_size n he.2.2.1
      unfold readAt
      rw [(BERTLV.getInstance_node arr o n enc rest hd he).1]
      simp only [hsz]
      simp only [BERTLV.ofNode]
      obtain ⟨_, _, _, b, hb, henc⟩ := he
      cases tree with
      | leaf c k v =>
        have hn : n = _ := hn
        subst hn
        simp only [Bool.false_eq_true, if_false]
        obtain ⟨dst', h1, h2⟩ := C71_getValue ⟨false, some ⟨some (c : Int), false, some (k : Int), 1⟩, (v.length : Int), some v⟩ rfl v rfl rfl
          (fresh (v.length : Int) 0) 0 (by rw [fresh_length]; omega)
        rw [show ((0 : Nat) : Int) = 0 from rfl] at h1
        have hv : dst' = v := by
          have hle := h2.1
          rw [written_iff hle] at h2
          rw [h2]
          unfold splice
          have : List.drop (0 + v.length) (fresh (v.length : Int) (0 : Int)) = [] := List.drop_eq_nil_of_le (by rw [fresh_length]; omega)
          rw [this]; simp
        rw [h1]
        simp only [hv, Option.getD_some, Int.toNat_natCast]
        congr 3
        simp only at hen
        omega
      | node c k cs =>
        obtain ⟨rfl, hc, rfl, hfor⟩ := hn
        simp only [hc, if_true]
        have hd2 : arr.drop (o + 2) = n.value ++ rest := by
          rw [← List.drop_drop, hd, henc]; simp
        have := ih.2 cs (o + 2) n.value rest hd2 hfor (by omega)
        have e1 : (o : Int) + (2 + (n.value.length : Int)) - (n.value.length : Int) = ((o + 2 : Nat) : Int) := by omega
        have e2 : (o : Int) + (2 + (n.value.length : Int)) = ((o + 2 + n.value.length : Nat) : Int) := by omega
        rw [e1, e2, this]
        simp only [Option.getD_some, Int.toNat_natCast]
        congr 3
        omega
    · intro ts o v rest hd hfor hl
      unfold readSeq
      cases ts with
      | nil =>
        rw [EncodesForest] at hfor
        subst hfor
        rw [if_neg (by simp)]
      | cons t ts =>
        rw [EncodesForest] at hfor
        obtain ⟨a, b, rfl, h1, h2⟩ := hfor
        have ha : 2 ≤ a.length := by
          obtain ⟨n, _, he⟩ := (encodesTree_iff t a).1 h1
          have := BERTLV.encodes_length he
          omega
        simp only [List.length_append] at hl ⊢
        rw [if_pos (by omega), ih.1 t o a (b ++ rest) (by rw [hd]; simp) h1 (by omega)]
        simp only
        have := ih.2 ts (o + a.length) b rest (by rw [← List.drop_drop, hd]; simp) h2 (by omega)
        rw [show o + (a.length + b.length) = o + a.length + b.length by omega, this]

/-- C88. Reading an encoded tree of any depth gives back exactly the tree. -/
theorem C88_read (tree : Tree) (arr : List Int) (o : Nat) (enc rest : List Int) (hd : arr.drop o = enc ++ rest) (he : EncodesTree tree enc)
    (fuel : Nat) (hf : enc.length ≤ fuel) : readAt arr fuel o = some (.ok (tree, ((o + enc.length : Nat) : Int))) :=
  (read_all arr fuel).1 tree o enc rest hd he hf

/-- C88. So no bytes encode two different trees. -/
theorem C88_unambiguous (t u : Tree) (enc : List Int) (ht : EncodesTree t enc) (hu : EncodesTree u enc) : t = u := by
  have h1 := C88_read t enc 0 enc [] (by simp) ht enc.length (Nat.le_refl _)
  have h2 := C88_read u enc 0 enc [] (by simp) hu enc.length (Nat.le_refl _)
  rw [h1] at h2
  injection h2 with h2; injection h2 with h2; injection h2

/-! ### Building -/

mutual
/-- The number of bytes of a data object. -/
def treeBytes : Tree → Nat
  | .leaf _ _ v => 2 + v.length
  | .node _ _ cs => 2 + forestBytes cs
def forestBytes : List Tree → Nat
  | [] => 0
  | c :: cs => treeBytes c + forestBytes cs
end

mutual
theorem treeBytes_eq (t : Tree) (l : List Int) (h : EncodesTree t l) : l.length = treeBytes t := by
  cases t with
  | leaf c k v => rw [EncodesTree] at h; rw [treeBytes]; exact BERTLV.encodes_length h
  | node c k cs =>
    rw [EncodesTree] at h
    obtain ⟨v, hv, he⟩ := h
    rw [treeBytes, BERTLV.encodes_length he, ← forestBytes_eq cs v hv]
theorem forestBytes_eq (ts : List Tree) (l : List Int) (h : EncodesForest ts l) : l.length = forestBytes ts := by
  cases ts with
  | nil => rw [EncodesForest] at h; subst h; rw [forestBytes]; rfl
  | cons t ts =>
    rw [EncodesForest] at h
    obtain ⟨a, b, rfl, h1, h2⟩ := h
    rw [forestBytes, List.length_append, treeBytes_eq t a h1, forestBytes_eq ts b h2]
end

theorem tree_length_unique (t : Tree) (n : Node) (hn : RootNode t n) (l : List Int) (h : EncodesTree t l) : n.value.length + 2 = l.length := by
  rw [treeBytes_eq t l h]
  cases t with
  | leaf c k v => have hn : n = _ := hn; subst hn; rw [treeBytes]; simp; omega
  | node c k cs => rw [treeBytes, ← forestBytes_eq cs _ hn.2.2.2]; omega

mutual
/-- A client that builds the TLV object of a data object: the tag object read from its identifier octet, `init(tag, value, 0, len)`, and
for a constructed one `append` of every child in turn, built the same way. -/
def build : Tree → Except Err BERTLV
  | .leaf cls num v =>
    match BERTag.getInstance [(leading cls false num : Int)] 0 with
    | .error e => .error e
    | .ok tag => .ok ((BERTLV.new false).initTag tag v 0 v.length)
  | .node cls num cs =>
    match BERTag.getInstance [(leading cls true num : Int)] 0 with
    | .error e => .error e
    | .ok tag => buildInto cs ((BERTLV.new true).initTag tag [] 0 0)
/-- Build and append the children. -/
def buildInto : List Tree → BERTLV → Except Err BERTLV
  | [], t => .ok t
  | c :: cs, t =>
    match build c with
    | .error e => .error e
    | .ok b =>
      match t.append b with
      | (.error e, _) => .error e
      | (.ok _, t') => buildInto cs t'
end

mutual
/-- Every tag has a class 0..3 and a number up to 30. -/
def ShortTags : Tree → Prop
  | .leaf cls num _ => cls < 4 ∧ num ≤ 30
  | .node cls num cs => cls < 4 ∧ num ≤ 30 ∧ ShortTagsAll cs
def ShortTagsAll : List Tree → Prop
  | [] => True
  | c :: cs => ShortTags c ∧ ShortTagsAll cs
end

/-- The tag object read from one identifier octet. -/
theorem getInstance_octet (cls num : Nat) (c : Bool) (hc : cls < 4) (hn : num ≤ 30) :
    BERTag.getInstance [(leading cls c num : Int)] 0 = .ok ⟨some (cls : Int), c, some (num : Int), 1⟩ := by
  have hlt : leading cls c num < 256 := by unfold leading; split <;> omega
  have := BERTag.getInstance_decode [(leading cls c num : Int)] 0 [(leading cls c num : Int)] [] [leading cls c num] cls num c rfl
    ⟨⟨hlt, .inl rfl⟩, trivial⟩ ⟨hc, .inl ⟨hn, rfl⟩⟩
  simpa using this

/-- What is known of an object under construction. -/
def Partial (t : BERTLV) (cls num : Nat) (c : Bool) (v : List Int) : Prop :=
  t.constructed = c ∧ t.tag = some ⟨some (cls : Int), c, some (num : Int), 1⟩ ∧ t.value = some v ∧ t.length = v.length

mutual
theorem build_spec (tree : Tree) (h : ShortTags tree) (t : BERTLV) (hb : build tree = .ok t) :
    ∃ n, RootNode tree n ∧ Partial t n.cls n.num n.constructed n.value ∧ n.cls < 4 ∧ n.num ≤ 30 := by
  cases tree with
  | leaf cls num v =>
    rw [ShortTags] at h
    rw [build, getInstance_octet cls num false h.1 h.2] at hb
    simp only [Except.ok.injEq] at hb
    subst hb
    refine ⟨_, rfl, ⟨rfl, rfl, ?_, rfl⟩, h⟩
    simp only [BERTLV.initTag]
    rw [show (0 : Int) = ((0 : Nat) : Int) from rfl, slice_add]
    simp
  | node cls num cs =>
    rw [ShortTags] at h
    rw [build, getInstance_octet cls num true h.1 h.2.1] at hb
    simp only at hb
    obtain ⟨v, h1, h2⟩ := buildInto_spec cs h.2.2 _ t cls num [] ⟨rfl, rfl, rfl, rfl⟩ hb
    exact ⟨⟨cls, true, num, v⟩, ⟨rfl, rfl, rfl, h1⟩, h2, h.1, h.2.1⟩
theorem buildInto_spec (cs : List Tree) (h : ShortTagsAll cs) (t t' : BERTLV) (cls num : Nat) (v : List Int)
    (hp : Partial t cls num true v) (hb : buildInto cs t = .ok t') :
    ∃ w, EncodesForest cs w ∧ Partial t' cls num true (v ++ w) := by
  cases cs with
  | nil =>
    rw [buildInto] at hb
    injection hb with hb
    subst hb
    exact ⟨[], by rw [EncodesForest], by simpa using hp⟩
  | cons c cs =>
    rw [ShortTagsAll] at h
    rw [buildInto] at hb
    cases hc : build c with
    | error e => rw [hc] at hb; cases hb
    | ok b =>
      rw [hc] at hb
      simp only at hb
      obtain ⟨n, hn, ⟨b1, b2, b3, b4⟩, hcls, hnum⟩ := build_spec c h.1 b hc
      obtain ⟨p1, p2, p3, p4⟩ := hp
      by_cases h127 : n.value.length ≤ 127
      · obtain ⟨t1, enc, e1, e2, e3, e4, e5, e6, k, e7⟩ := C46_append t b v p1 p3 _ _ p2 n b2 ⟨rfl, rfl, rfl⟩ rfl b3 b4 hcls hnum h127
        rw [e1, e7] at hb
        simp only at hb
        obtain ⟨w, w1, w2⟩ := buildInto_spec cs h.2 t1 t' cls num (v ++ enc) ⟨e6, by rw [e5, p2], e3, by rw [e4, p4]; simp⟩ hb
        refine ⟨enc ++ w, ?_, by rw [← List.append_assoc]; exact w2⟩
        rw [EncodesForest]
        exact ⟨enc, w, rfl, (encodesTree_iff c enc).2 ⟨n, hn, e2⟩, w1⟩
      · obtain ⟨e, he⟩ : ∃ e, t.append b = (.error e, t) := by
          have hlen : 127 < b.length := by rw [b4]; omega
          unfold BERTLV.append
          rw [if_neg (by simp [p1])]
          cases hs : b.size with
          | error e => exact ⟨e, rfl⟩
          | ok k =>
            obtain ⟨e, he⟩ := C41_never b hlen (fresh k 0) 0
            simp only
            generalize b.toBytes (fresh k 0) 0 = r at he ⊢
            obtain ⟨r1, r2⟩ := r
            simp only at he
            subst he
            exact ⟨e, rfl⟩
        rw [he] at hb
        cases hb
end

mutual
theorem build_ok (tree : Tree) (enc : List Int) (h : EncodesTree tree enc) : ShortTags tree ∧ ∃ t, build tree = .ok t := by
  cases tree with
  | leaf cls num v =>
    rw [EncodesTree] at h
    rw [ShortTags, build, getInstance_octet cls num false h.1 h.2.1]
    exact ⟨⟨h.1, h.2.1⟩, _, rfl⟩
  | node cls num cs =>
    rw [EncodesTree] at h
    obtain ⟨v, hv, h1, h2, h3, _⟩ := h
    rw [ShortTags, build, getInstance_octet cls num true h1 h2]
    obtain ⟨s, hs⟩ := buildInto_ok cs v hv
    obtain ⟨t, ht⟩ := hs ((BERTLV.new true).initTag ⟨some (cls : Int), true, some (num : Int), 1⟩ [] 0 0) cls num [] ⟨rfl, rfl, rfl, rfl⟩
    exact ⟨⟨h1, h2, s⟩, t, ht⟩
theorem buildInto_ok (cs : List Tree) (w : List Int) (h : EncodesForest cs w) :
    ShortTagsAll cs ∧ ∀ (t : BERTLV) (cls num : Nat) (v : List Int), Partial t cls num true v → ∃ t', buildInto cs t = .ok t' := by
  cases cs with
  | nil => rw [ShortTagsAll]; exact ⟨trivial, fun t _ _ _ _ => ⟨t, by rw [buildInto]⟩⟩
  | cons c cs =>
    rw [EncodesForest] at h
    obtain ⟨a, b, rfl, ha, hb⟩ := h
    obtain ⟨s1, u, hu⟩ := build_ok c a ha
    obtain ⟨s2, hs⟩ := buildInto_ok cs b hb
    rw [ShortTagsAll]
    refine ⟨⟨s1, s2⟩, ?_⟩
    intro t cls num v hp
    rw [buildInto, hu]
    simp only
    obtain ⟨n, hn, ⟨b1, b2, b3, b4⟩, hcls, hnum⟩ := build_spec c s1 u hu
    obtain ⟨p1, p2, p3, p4⟩ := hp
    have h127 : n.value.length ≤ 127 := by
      have := tree_length_unique c n hn a ha
      obtain ⟨m, _, hm⟩ := (encodesTree_iff c a).1 ha
      have := BERTLV.encodes_length hm
      have := hm.2.2.1
      omega
    obtain ⟨t1, enc, e1, e2, e3, e4, e5, e6, k, e7⟩ := C46_append t u v p1 p3 _ _ p2 n b2 ⟨rfl, rfl, rfl⟩ rfl b3 b4 hcls hnum h127
    rw [e1, e7]
    simp only
    exact hs t1 cls num (v ++ enc) ⟨e6, by rw [e5, p2], e3, by rw [e4, p4]; simp⟩
end

/-- C88. Building: for every tree that has an encoding, the object can be built child by child, holds the tree, and is written by `toBytes`
(anywhere it fits) as bytes that are read back as exactly that tree. -/
theorem C88_build_roundtrip (tree : Tree) (enc : List Int) (he : EncodesTree tree enc) (buf : List Int) (o : Nat) (hr : o + enc.length ≤ buf.length) :
    ∃ t buf', build tree = .ok t ∧ IsTree t tree ∧ t.toBytes buf o = (.ok (enc.length : Int), buf') ∧
      (∃ enc', EncodesTree tree enc' ∧ range buf' o enc.length = enc') ∧
      ∀ fuel, enc.length ≤ fuel → readAt buf' fuel o = some (.ok (tree, ((o + enc.length : Nat) : Int))) := by
  obtain ⟨hs, t, ht⟩ := build_ok tree enc he
  obtain ⟨n, hn, ⟨b1, b2, b3, b4⟩, hcls, hnum⟩ := build_spec tree hs t ht
  have hlen := tree_length_unique tree n hn enc he
  have h127 : n.value.length ≤ 127 := by
    obtain ⟨m, _, hm⟩ := (encodesTree_iff tree enc).1 he
    have := BERTLV.encodes_length hm
    have := hm.2.2.1
    omega
  obtain ⟨base, buf', enc', e, hE, _, hw⟩ := C40_encode t _ n b2 ⟨rfl, rfl, rfl⟩ b3 b4 hcls hnum h127 buf o (by omega)
  have hE' : EncodesTree tree enc' := (encodesTree_iff tree enc').2 ⟨n, hn, hE⟩
  have hlen' := tree_length_unique tree n hn enc' hE'
  have hrange : range buf' o enc'.length = enc' := by
    have hle := hw.1
    rw [written_iff hle] at hw
    subst hw
    unfold range splice
    rw [List.append_assoc, List.drop_append]
    have : (List.take o base).length = o := by simp; omega
    rw [this]
    simp
  have hd : buf'.drop o = enc' ++ buf'.drop (o + enc'.length) := by
    rw [← List.drop_drop]
    conv => lhs; rw [← List.take_append_drop enc'.length (List.drop o buf')]
    rw [show (List.drop o buf').take enc'.length = enc' from hrange]
  refine ⟨t, buf', ht, ⟨n, hn, b1, ⟨_, b2, rfl, rfl, rfl⟩, b4, b3, ?_⟩, ?_, ⟨enc', hE', by rw [show enc.length = enc'.length by omega]; exact hrange⟩, ?_⟩
  · exact (C40_size t _ b2 n.value.length h127 b4).2 rfl
  · rw [e]; congr 2; omega
  · intro fuel hf
    rw [show enc.length = enc'.length by omega] at hf ⊢
    exact C88_read tree buf' o enc' _ hd hE' fuel hf

/-- C88, the limit: a tree with one-byte tags that has no encoding with one-byte lengths (it, or a part of it, takes more than 129 bytes)
cannot be built and written: some `append` or the final `toBytes` raises. -/
theorem C88_too_long (tree : Tree) (hs : ShortTags tree) (hno : ¬ ∃ enc, EncodesTree tree enc) (t : BERTLV) (ht : build tree = .ok t)
    (buf : List Int) (o : Int) : ∃ e, (t.toBytes buf o).1 = .error e := by
  obtain ⟨n, hn, ⟨b1, b2, b3, b4⟩, hcls, hnum⟩ := build_spec tree hs t ht
  refine C41_never t ?_ buf o
  rw [b4]
  by_cases h : n.value.length ≤ 127
  · exfalso
    have hlt : leading n.cls n.constructed n.num < 256 := by unfold leading; split <;> omega
    exact hno ⟨_, (encodesTree_iff tree _).2 ⟨n, hn, hcls, hnum, h, _, ⟨hlt, .inl rfl⟩, rfl⟩⟩
  · omega

/-- A tree of depth three and one of its encodings. -/
example : EncodesTree (.node 0 16 [.leaf 0 2 [5], .node 2 1 [.leaf 2 0 [], .leaf 0 4 [7, 8]]]) [0x30, 11, 2, 1, 5, 0xA1, 6, -128, 0, 4, 2, 7, 8] := by
  simp only [EncodesTree, EncodesForest]
  refine ⟨[2, 1, 5, 0xA1, 6, -128, 0, 4, 2, 7, 8], ⟨[2, 1, 5], [0xA1, 6, -128, 0, 4, 2, 7, 8], rfl, ?_, _, [], by rw [List.append_nil], ?_, rfl⟩, ?_⟩
  · exact ⟨by decide, by decide, by decide, 2, by simp [Spells, leading], rfl⟩
  · refine ⟨[-128, 0, 4, 2, 7, 8], ⟨[-128, 0], [4, 2, 7, 8], rfl, ?_, _, [], by rw [List.append_nil], ?_, rfl⟩, ?_⟩
    · exact ⟨by decide, by decide, by decide, -128, by simp [Spells, leading], rfl⟩
    · exact ⟨by decide, by decide, by decide, 4, by simp [Spells, leading], rfl⟩
    · exact ⟨by decide, by decide, by decide, 0xA1, by simp [Spells, leading], rfl⟩
  · exact ⟨by decide, by decide, by decide, 0x30, by simp [Spells, leading], rfl⟩

/-- In that tree the path "A1, 04" leads to the leaf with value 7 8, and a path into a leaf is an error. -/
example : lookup (.node 0 16 [.leaf 0 2 [5], .node 2 1 [.leaf 2 0 [], .leaf 0 4 [7, 8]]]) [(2, true, 1), (0, false, 4)] = .found (.leaf 0 4 [7, 8]) ∧
    lookup (.node 0 16 [.leaf 0 2 [5]]) [(0, false, 2), (0, false, 4)] = .primitive := ⟨rfl, rfl⟩

end Verif.Props
