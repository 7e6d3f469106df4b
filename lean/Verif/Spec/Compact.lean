import Verif.Model.Compact
/-
What a compound file is (every entry once, below a storage, with a valid name), in which orders it can be listed,
and what it means that two files hold the same.
-/
namespace Vpin

/-- A well-formed compound file. -/
structure Cfb.Tree (L : CfbLib) (c : Cfb) : Prop where
  /-- no two entries with the same name -/
  distinct : (c.map fun e => L.key e.1).Nodup
  /-- every entry has a valid name ... -/
  named : ∀ e ∈ c, ∃ name, e.1.getLast? = some name ∧ validName name
  /-- ... and lies in a storage -/
  below : ∀ e ∈ c, c.get L e.1.dropLast = some .storage

/-- A listing of a compound file: all its entries, each one behind the storage it lies in. -/
structure Cfb.Listing (L : CfbLib) (c : Cfb) (w : List (Path × Entry)) : Prop where
  perm : w.Perm c
  parents : ∀ a e b, w = a ++ e :: b → e.1.dropLast = [] ∨ ∃ x ∈ a, L.key x.1 = L.key e.1.dropLast

/-- Two files hold the same: the same storages, and the same streams with the same content. -/
def Cfb.Same (L : CfbLib) (c c' : Cfb) : Prop := ∀ p, c.get L p = c'.get L p

/-- The directory holds the table `c`, complete, under that name. -/
def Disk.holds (d : Disk) (L : CfbLib) (name : Str) (c : Cfb) : Prop :=
  ∃ c', d name = some (.table c') ∧ Cfb.Same L c c'

/-- Files that can be made with the library's calls, starting with an empty one. -/
inductive Cfb.Made (L : CfbLib) : Cfb → Prop where
  | empty : Cfb.Made L []
  | createStorage {c c' p} : Cfb.Made L c → c.createStorage L p = .ok c' → Cfb.Made L c'
  | createNewStream {c c' p bs} : Cfb.Made L c → c.createNewStream L p bs = .ok c' → Cfb.Made L c'
  | createStream {c c' p bs} : Cfb.Made L c → c.createStream L p bs = .ok c' → Cfb.Made L c'

end Vpin
