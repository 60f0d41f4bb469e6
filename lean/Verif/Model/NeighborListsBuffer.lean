import Verif.Model.CellOp
/-!
The buffer that owns the neighbour lists of VerletClusterLists: /repo/src/autopas/containers/NeighborListsBuffer.h.
-/
namespace Verif
section
variable {V : Type}

/-- `NeighborListsBuffer` without its key map, NeighborListsBuffer.h:129-153. `last = none` stands for
`_lastValidListIndex == std::numeric_limits<size_t>::max()`, to which `++` gives 0. The contents of `lists` are those of the vectors of
values; `_defaultListLength` only matters for lists that have not been handed out. The growth factor (a double, by default 2,
NeighborListsBuffer.h:152) is a rational number. -/
structure NLBuffer (V : Type) where
  lists : List (List V)
  last : Option Nat
  growth : Rat
  /-- what new lists are filled with: `_defaultListLength` default values -/
  fresh : List V

/-- A new buffer, NeighborListsBuffer.h:140-152. -/
def NLBuffer.new (fresh : List V) : NLBuffer V := ⟨[], none, 2, fresh⟩

/-- `std::vector::resize(n, value)`. -/
def vectorResize {α : Type} (l : List α) (n : Nat) (x : α) : List α := l.take n ++ List.replicate (n - l.length) x

/-- `clear()`, NeighborListsBuffer.h:104-107. -/
def NLBuffer.clear (b : NLBuffer V) : NLBuffer V := { b with last := none }

/-- `reserveNeighborLists(n)`, NeighborListsBuffer.h:115. -/
def NLBuffer.reserve (b : NLBuffer V) (n : Nat) : NLBuffer V := { b with lists := vectorResize b.lists n b.fresh }

/-- `getNewNeighborList()`, NeighborListsBuffer.h:74-84. `none`: `_neighborLists[_lastValidListIndex]` is out of range (undefined
behaviour). -/
def NLBuffer.getNew (b : NLBuffer V) : Option (Nat × NLBuffer V) :=
  let saturated : Bool := match b.last with
    | none => true
    | some k => decide (k ≥ b.lists.length)
  let lists := if saturated then vectorResize b.lists (max 10 ⌊(b.lists.length : Rat) * b.growth⌋.toNat) b.fresh else b.lists
  let k := match b.last with
    | none => 0
    | some k => k + 1
  if k < lists.length then some (k, { b with lists := lists.set k [], last := some k }) else none

/-- `n` calls of `getNewNeighborList()`: the indices that were returned and the buffer afterwards. -/
def NLBuffer.getMany : Nat → NLBuffer V → Option (List Nat × NLBuffer V)
  | 0, b => some ([], b)
  | n + 1, b => match b.getNew with
    | none => none
    | some (k, b') => match b'.getMany n with
      | none => none
      | some (ks, b'') => some (k :: ks, b'')

end
end Verif
