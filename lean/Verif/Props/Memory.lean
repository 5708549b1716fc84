import Verif.Model.Memory
import Verif.Props.Digest
import Verif.Props.ArraysWrap
/-! C68: `getAvailableMemory` with any number of arguments. -/
namespace Verif.Props
open Verif.Py Verif.Model Verif.Spec Verif.Model.JCSystem

/-- C68. `getAvailableMemory` with one argument answers 7FFF whatever it is; with three, the first a list and the second an offset inside it, it returns None and puts
7F and FF there, changing nothing else; it raises TypeError exactly if the number of arguments is neither one nor three, or if of three the first is a number, or
a list with an offset that is no number - and then it changes nothing; NameError in all other cases. -/
theorem C68_arguments (args : List MemArg) :
    (args.length = 1 → getAvailableMemory args = (.ok (some 32767), args)) ∧
    (∀ (b : List Int) (o : Nat) (t : MemArg), args = [.list b, .int o, t] → o + 2 ≤ b.length →
      ∃ b', getAvailableMemory args = (.ok none, [.list b', .int o, t]) ∧ Written b b' o [127, 255]) ∧
    ((getAvailableMemory args).1 = .error .typeError ↔
      (args.length ≠ 1 ∧ args.length ≠ 3) ∨ (∃ v x t, args = [.int v, x, t]) ∨ ∃ b x t, args = [.list b, x, t] ∧ ∀ o, x ≠ .int o) ∧
    ((getAvailableMemory args).1 = .error .typeError → (getAvailableMemory args).2 = args) ∧
    ∀ e, (getAvailableMemory args).1 = .error e → e = .typeError ∨ e = .nameError := by
  have h3 : ∀ (b : List Int) (o : Int), (∃ b', getAvailableMemory3 (some b) o 0 = (.error .nameError, b')) ∨ ∃ b', getAvailableMemory3 (some b) o 0 = (.ok (), b') := by
    intro b o
    unfold getAvailableMemory3
    simp only
    split
    · exact .inl ⟨_, rfl⟩
    · split
      · exact .inl ⟨_, rfl⟩
      · exact .inr ⟨_, rfl⟩
  rcases args with _ | ⟨a, _ | ⟨x, _ | ⟨t, _ | ⟨y, ys⟩⟩⟩⟩
  · simp [getAvailableMemory]
  · simp [getAvailableMemory]
  · simp [getAvailableMemory]
  · cases a with
    | nil => simp [getAvailableMemory]
    | int v => cases x <;> simp [getAvailableMemory]
    | list b =>
      cases x with
      | nil => simp [getAvailableMemory]; exact ⟨b, _, ⟨rfl, rfl⟩, nofun⟩
      | list b2 => simp [getAvailableMemory]; exact ⟨b, _, ⟨rfl, rfl⟩, nofun⟩
      | int o =>
        refine ⟨by simp, fun b1 o1 t1 he hr => ?_, ?_, ?_, ?_⟩
        · simp only [List.cons.injEq, MemArg.list.injEq, MemArg.int.injEq, and_true] at he
          obtain ⟨rfl, rfl, rfl⟩ := he
          obtain ⟨b', h1, h2⟩ := (C68_memory b o1 0).2.1 hr
          exact ⟨b', by simp only [getAvailableMemory, h1, Option.getD_some], h2⟩
        all_goals rcases h3 b o with ⟨b', h⟩ | ⟨b', h⟩ <;> simp [getAvailableMemory, h]
  · simp [getAvailableMemory]

/-- C68. The cells `getAvailableMemory` stores into, at every offset, negative ones included: 7F where the offset points and FF where the next index points; when only the
first exists it holds 7F when the NameError is raised, and without the first nothing is stored. The other two arguments never change. -/
theorem C68_cells (b : List Int) (o : Int) (t : MemArg) :
    (∀ p q, Names b.length o p → Names b.length (o + 1) q → getAvailableMemory [.list b, .int o, t] = (.ok none, [.list ((b.set p 127).set q 255), .int o, t])) ∧
    (∀ p, Names b.length o p → (¬ ∃ q, Names b.length (o + 1) q) → getAvailableMemory [.list b, .int o, t] = (.error .nameError, [.list (b.set p 127), .int o, t])) ∧
    ((¬ ∃ p, Names b.length o p) → getAvailableMemory [.list b, .int o, t] = (.error .nameError, [.list b, .int o, t])) := by
  have hn : ∀ (l : List Int) (i v : Int), (¬ ∃ p, Names l.length i p) → Verif.Py.set l i v = .error .indexError :=
    fun l i v h => set_unnamed l i v fun hr => h (names_of_reach _ _ hr)
  refine ⟨fun p q hp hq => ?_, fun p hp hq => ?_, fun hp => ?_⟩
  · simp only [getAvailableMemory, getAvailableMemory3, set_names _ _ _ _ hp, set_names (b.set p 0x7f) (o + 1) 0xff q (by simpa using hq), Option.getD_some]
  · simp only [getAvailableMemory, getAvailableMemory3, set_names _ _ _ _ hp, hn (b.set p 0x7f) (o + 1) 0xff (by simpa using hq), Option.getD_some]
  · simp only [getAvailableMemory, getAvailableMemory3, hn _ _ 0x7f hp, Option.getD_some]

example : getAvailableMemory [.list [1, 2, 3], .int 1, .int 0] = (.ok none, [.list [1, 127, 255], .int 1, .int 0]) := by decide
example : getAvailableMemory [.list [1, 2, 3], .int 1] = (.error .typeError, [.list [1, 2, 3], .int 1]) := by decide
example : getAvailableMemory [.list [1, 2, 3], .int 2, .nil] = (.error .nameError, [.list [1, 2, 127], .int 2, .nil]) := by decide

example : getAvailableMemory [.list [1, 2, 3], .int (-1), .nil] = (.ok none, [.list [255, 2, 127], .int (-1), .nil]) := by decide

end Verif.Props
