/-
Specification vocabulary for splitting a request into blocks.
Independent of the code: a list of block lengths, a start position and a
period `size`.
-/
namespace Verif

/-- `bs` splits a stretch of `num` samples starting at position `start` of a
cyclic storage with `size` cells: all pieces are non-empty, they add up to
`num`, no piece crosses the end of the storage and every piece but the last
one reaches exactly the end of the storage. -/
structure IsBlockSplit (num start size : Int) (bs : List Int) : Prop where
  pos : ∀ b ∈ bs, 0 < b
  total : bs.sum = num
  noCross : ∀ i (h : i < bs.length), bs[i] ≤ size - (start + (bs.take i).sum) % size
  onBoundary : ∀ i, i + 1 < bs.length → (start + (bs.take (i + 1)).sum) % size = 0

end Verif
