import Verif.Model.Expanded
/-
Writing the items in parallel: each task does its writes in order, and the writes of different tasks come in any
order.
-/
namespace Vpin

/-- a list that has the elements of all the lists, those of each list in order -/
inductive Interleaving {α : Type} : List (List α) → List α → Prop where
  | done {ls : List (List α)} : (∀ l ∈ ls, l = []) → Interleaving ls []
  | step {before after : List (List α)} {a : α} {l rest : List α} :
      Interleaving (before ++ l :: after) rest → Interleaving (before ++ (a :: l) :: after) (a :: rest)

/-- `write_gameitems` with the feature `parallel`, /repo/src/vpx/expanded/gameitems.rs:65-134: what it does to the file
system under some schedule of the tasks. All tasks are run, also after an error; the result is the first error in the
order of the items. -/
def WriteItemsParallel (E : ExpandEnv) (fmt : MeshFormat) (root : Str) (items : List GameItemEnum)
    (steps : List FsStep) : Prop :=
  ∃ stems ws, itemStems E.U [] items = .ok stems ∧
    let dir := joinPath root "gameitems".toList
    let tasks := (stems.zip items).map fun (stem, item) => itemTask E fmt stem item
    Interleaving (tasks.map (·.1)) ws ∧
    steps = stems.map (fun stem => .absent (joinPath dir (itemFile stem)))
      ++ [jsonStep E root "gameitems.json" (jVec jGameItemInfo)
            ((stems.zip items).map fun (stem, item) => item.info (itemFile stem))]
      ++ ws.map (fun (file, bs) => .write (joinPath dir file) bs)
      ++ firstError tasks

/-- a file of an expanded table: in the directory, or in one of its four directories -/
def InExpandedDir (root p : Str) : Prop :=
  ∃ f : Str, '/' ∉ f ∧ (p = root ++ '/' :: f ∨
    ∃ d ∈ ["gameitems", "images", "sounds", "fonts"], p = root ++ '/' :: (d.toList ++ '/' :: f))

end Vpin
