/-
Model of `src/aspsim/utilities.py` and of the block helpers in
`src/aspsim/processor.py`.
-/
namespace Verif

/-- The `while` loop of `calc_block_sizes`, `src/aspsim/utilities.py:7-14`.
`fuel` bounds the number of loop tests; `none` means the loop is still running
when the fuel is used up.  numpy/Python integers are `Int`. -/
def calcLoop (num size : Int) : Nat → Int → Int → List Int → Option (List Int)
  | 0, _, _, _ => none
  | fuel + 1, left, cnt, acc =>
    if cnt < num then
      let b := min (num - cnt) left
      let left' := left - b
      calcLoop num size fuel (if left' = 0 then size else left') (cnt + b) (acc ++ [b])
    else some acc

/-- `calc_block_sizes(num_samples, start_idx, block_size)`,
`src/aspsim/utilities.py:4-15`, run with `fuel` loop tests. -/
def calcBlockSizes (fuel : Nat) (num start size : Int) : Option (List Int) :=
  calcLoop num size fuel (size - start) 0 []

/-- `calc_block_sizes_with_buffer(num_samples, idx, buffer_size, chunk_size)`,
`src/aspsim/processor.py:79-90`: the same loop with `leftInBuffer` starting at
`chunk_size + buffer_size - idx` and restarting at `chunk_size`. -/
def calcBlockSizesWithBuffer (fuel : Nat) (num idx buffer chunk : Int) : Option (List Int) :=
  calcLoop num chunk fuel (chunk + buffer - idx) 0 []

/-- `find_first_index_for_block`, `src/aspsim/processor.py:93-101`.
Python's `//` is floor division (`Int.fdiv`); division by zero raises. -/
def findFirstIndexForBlock (earliest endIdx blockSize : Int) : Option Int :=
  if blockSize = 0 then none
  else
    let numSamples := endIdx - earliest
    let numBlocks := numSamples.fdiv blockSize
    some (endIdx - blockSize * numBlocks)

/-- `block_process_until_index`, `src/aspsim/processor.py:103-117`: the list of
yielded `(start, end)` pairs (`range` of a negative number is empty). -/
def blockProcessUntilIndex (earliest endIdx blockSize : Int) : Option (List (Int × Int)) :=
  if blockSize = 0 then none
  else
    let numSamples := endIdx - earliest
    let numBlocks := numSamples.fdiv blockSize
    let start := endIdx - blockSize * numBlocks
    some ((List.range numBlocks.toNat).map fun (i : Nat) =>
      (start + (i : Int) * blockSize, start + ((i : Int) + 1) * blockSize))

end Verif
