import Verif.Lemmas.Blocks

/-! Properties C38 and C74: block helpers. -/
namespace Verif

/-- C38. `calc_block_sizes(num, start, size)` with `0 <= start < size`
terminates (every sufficiently large fuel gives the same answer) and returns a
split of `num` samples into blocks respecting the boundaries. -/
theorem C38_calc_block_sizes (num start size : Int) (hn : 0 ≤ num) (h0 : 0 ≤ start)
    (hs : start < size) :
    ∃ bs, (∀ fuel : Nat, num.toNat < fuel → calcBlockSizes fuel num start size = some bs) ∧
      IsBlockSplit num start size bs := by
  have key : ∀ fuel : Nat, num.toNat < fuel →
      ∃ bs, calcBlockSizes fuel num start size = some bs ∧ IsBlockSplit num start size bs := by
    intro fuel hf
    have hm : start % size = start := Int.emod_eq_of_lt h0 hs
    obtain ⟨bs, h1, h2⟩ := calcLoop_spec num size (by omega) fuel start (size - start) 0 []
      (by rw [hm]) hn (by omega)
    refine ⟨bs, ?_, by simpa using h2⟩
    simpa [calcBlockSizes] using h1
  obtain ⟨bs, h1, h2⟩ := key (num.toNat + 1) (by omega)
  refine ⟨bs, ?_, h2⟩
  intro fuel hf
  obtain ⟨k, rfl⟩ : ∃ k, fuel = num.toNat + 1 + k := ⟨fuel - (num.toNat + 1), by omega⟩
  have := calcLoop_mono num size k (num.toNat + 1) (size - start) 0 [] bs h1
  exact this

example : ∃ bs, (∀ fuel : Nat, (10 : Int).toNat < fuel → calcBlockSizes fuel 10 2 4 = some bs) ∧
    IsBlockSplit 10 2 4 bs := C38_calc_block_sizes 10 2 4 (by decide) (by decide) (by decide)
example : calcBlockSizes 11 10 2 4 = some [2, 4, 4] := by decide

/-- The conditions of `IsBlockSplit` determine the block list, so C38 is a
complete description of the result. -/
theorem C38_split_unique (num start size : Int) (bs cs : List Int)
    (hb : IsBlockSplit num start size bs) (hc : IsBlockSplit num start size cs) : bs = cs :=
  isBlockSplit_unique hb hc

/-- A zero `block_size` (for instance an empty audio sequence) hangs: no amount
of fuel lets the loop finish. -/
theorem C38_zero_size_hangs (num : Int) (hn : 0 < num) (fuel : Nat) :
    calcBlockSizes fuel num 0 0 = none :=
  calcLoop_zero_hang num fuel 0 [] hn

example : calcBlockSizes 1000 3 0 0 = none := C38_zero_size_hangs 3 (by decide) 1000

/-- `calc_block_sizes_with_buffer`: same description for a buffer whose index
`idx` lies inside the last `chunk` cells. -/
theorem C74_calc_block_sizes_with_buffer (num idx buffer chunk : Int) (hn : 0 ≤ num)
    (h0 : buffer ≤ idx) (hs : idx < chunk + buffer) :
    ∃ bs, (∀ fuel : Nat, num.toNat < fuel →
        calcBlockSizesWithBuffer fuel num idx buffer chunk = some bs) ∧
      IsBlockSplit num (idx - buffer) chunk bs := by
  have := C38_calc_block_sizes num (idx - buffer) chunk hn (by omega) (by omega)
  have e : chunk - (idx - buffer) = chunk + buffer - idx := by omega
  simpa [calcBlockSizes, calcBlockSizesWithBuffer, e] using this

example : calcBlockSizesWithBuffer 11 10 7 5 4 = some [2, 4, 4] := by decide

/-- C74. `find_first_index_for_block`: the blocks end at the requested index,
their number is maximal, and the start is not before the earliest one. -/
theorem C74_find_first_index (earliest endIdx bs : Int) (hb : 0 < bs) :
    ∃ s, findFirstIndexForBlock earliest endIdx bs = some s ∧
      bs ∣ (endIdx - s) ∧ earliest ≤ s ∧ s < earliest + bs := by
  refine ⟨endIdx - bs * ((endIdx - earliest).fdiv bs), ?_, ?_, ?_, ?_⟩
  · simp [findFirstIndexForBlock, Int.ne_of_gt hb]
  · exact ⟨(endIdx - earliest).fdiv bs, by ring⟩
  · have := Int.mul_fdiv_self_le (x := endIdx - earliest) (k := bs) hb
    omega
  · have := Int.lt_mul_fdiv_self_add (x := endIdx - earliest) (k := bs) hb
    omega

example : findFirstIndexForBlock 3 25 4 = some 5 := by decide

/-- C74. `block_process_until_index` yields blocks of exactly `block_size`,
each starting where the previous one ended, the first one starting less than a
block after the earliest index and the last one ending at the requested
index. -/
theorem C74_block_process (earliest endIdx bs : Int) (hb : 0 < bs) (he : earliest ≤ endIdx) :
    ∃ l, blockProcessUntilIndex earliest endIdx bs = some l ∧
      (∀ p ∈ l, p.2 - p.1 = bs) ∧
      (∀ i (h : i + 1 < l.length), l[i].2 = l[i + 1].1) ∧
      (∀ h : 0 < l.length, earliest ≤ l[0].1 ∧ l[0].1 < earliest + bs) ∧
      (∀ h : 0 < l.length, l[l.length - 1].2 = endIdx) ∧
      (l = [] → endIdx - earliest < bs) := by
  have h1 := Int.mul_fdiv_self_le (x := endIdx - earliest) (k := bs) hb
  have h2 := Int.lt_mul_fdiv_self_add (x := endIdx - earliest) (k := bs) hb
  have h3 : 0 ≤ (endIdx - earliest).fdiv bs := Int.fdiv_nonneg (by omega) (by omega)
  refine ⟨_, by simp only [blockProcessUntilIndex, Int.ne_of_gt hb, if_false]; rfl,
    ?_, ?_, ?_, ?_, ?_⟩
  · intro p hp
    simp only [List.mem_map] at hp
    obtain ⟨i, _, rfl⟩ := hp
    simp only; ring
  · intro i hi
    simp only [List.getElem_map, List.getElem_range]
    push_cast; ring
  · intro h
    simp only [List.getElem_map, List.getElem_range]
    constructor <;> push_cast <;> linarith
  · intro h
    simp only [List.length_map, List.length_range] at h
    simp only [List.getElem_map, List.getElem_range, List.length_map, List.length_range]
    have : (((endIdx - earliest).fdiv bs).toNat - 1 : Nat) + (1 : Int) =
        (endIdx - earliest).fdiv bs := by omega
    rw [this]; ring
  · intro h
    simp only [List.map_eq_nil_iff, List.range_eq_nil] at h
    have : (endIdx - earliest).fdiv bs = 0 := by omega
    rw [this] at h2
    omega

example : blockProcessUntilIndex 3 15 5 = some [(5, 10), (10, 15)] := by decide

end Verif
