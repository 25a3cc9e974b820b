/-
C165: whether a simulation with FxLMS that runs through also runs through with more samples.
-/
import Verif.Lemmas.AdaptiveShort
import Verif.Props.AdaptiveTotal
import Mathlib.Tactic.IntervalCases
namespace Verif

section
variable {R S A V : Type} [Field R] [DecidableEq R] {q : FxPar R}
  {cfg : SimCfg R (IrMat R) (Fir R) S A (FxSt R) (DData R (FxSt R) V) (DOut R V)}
  {srcs : String → S} {arr : A} {J : A → Prop}

/-- C165, exactly when a valid scene with `FxLMS` runs to its end, for blocks not longer than
a chunk: if at every call during the `tot + bs` steps the signals go back as far as the
processor looks, which is `ub + L - 1` samples for an update. -/
theorem C165_when (h : FxScene cfg q) (hC : q.bs ≤ cfg.C) (hv : ValidScene cfg srcs arr J) (Sp : IrMat R) (f0 : Fir R)
    {ds0 : List (Diag (DData R (FxSt R) V))} (hnd : (ds0.map Diag.name).Nodup)
    (hds : ∀ d ∈ ds0, d.Fits cfg (FxShape q)) (hreads : ∀ d ∈ ds0, ∀ name ∈ d.data.reads, name ≠ "xf") :
    (∃ fin, cfg.runWith fxPrepare srcs arr (fxInit q Sp) f0 ds0 = .ok fin) ↔
      Reaches cfg q (q.ub + q.L - 1) (cfg.tot + q.bs) := by
  constructor
  · rintro ⟨fin, hr⟩
    by_contra hb
    rw [h.fails hC hb hv Sp f0 hnd (fun d hd => (hds d hd).mono fun p hp => ⟨hp.cIn, hp.cOut, hp.cLen⟩) hreads] at hr
    cases hr
  · intro hb
    exact C157_adaptive_runs_through h (.inr ⟨hC, hb⟩) hv Sp f0 hnd hds hreads

/-- C165, what happens otherwise: `ValueError`. -/
theorem C165_raises (h : FxScene cfg q) (hC : q.bs ≤ cfg.C) (hv : ValidScene cfg srcs arr J) (Sp : IrMat R) (f0 : Fir R)
    {ds0 : List (Diag (DData R (FxSt R) V))} (hnd : (ds0.map Diag.name).Nodup)
    (hds : ∀ d ∈ ds0, d.Fits cfg (FxShape q)) (hreads : ∀ d ∈ ds0, ∀ name ∈ d.data.reads, name ≠ "xf")
    (hb : ¬ Reaches cfg q (q.ub + q.L - 1) (cfg.tot + q.bs)) :
    cfg.runWith fxPrepare srcs arr (fxInit q Sp) f0 ds0 = .error .value :=
  h.fails hC hb hv Sp f0 hnd (fun d hd => (hds d hd).mono fun p hp => ⟨hp.cIn, hp.cOut, hp.cLen⟩) hreads

theorem FxScene.lasting (h : FxScene cfg q) (n : Nat) : FxScene { cfg with tot := n } q :=
  ⟨h.proc, h.ref, h.err, h.ls, h.own, h.nr, h.nl, h.ne, h.L, h.bs, h.ub, h.chunk, h.buffer, h.regular⟩

theorem ValidScene.lasting (h : ValidScene cfg srcs arr J) (n : Nat) : ValidScene { cfg with tot := n } srcs arr J :=
  ⟨h.diag, h.filt, h.names, h.channels, h.streams, h.arr0, h.moves, h.paths⟩

/-- C165 in part: a simulation with `FxLMS` that runs through a number of samples in which
the updates and the chunks come around to where they began (a common multiple of
`update_block_size` and `sim_chunk_size`) runs through with any number of samples. -/
theorem C165_longer_partial (h : FxScene cfg q) (hC : q.bs ≤ cfg.C) (hv : ValidScene cfg srcs arr J) (Sp : IrMat R) (f0 : Fir R)
    {ds0 ds1 : List (Diag (DData R (FxSt R) V))} (hnd : (ds0.map Diag.name).Nodup)
    (hds : ∀ d ∈ ds0, d.Fits cfg (FxShape q)) (hreads : ∀ d ∈ ds0, ∀ name ∈ d.data.reads, name ≠ "xf")
    (hlcm : Nat.lcm q.ub cfg.C ≤ cfg.tot)
    {fin : SimSt R (Fir R) S A (FxSt R) (DData R (FxSt R) V) (DOut R V)}
    (hr : cfg.runWith fxPrepare srcs arr (fxInit q Sp) f0 ds0 = .ok fin) (n : Nat) (hnd1 : (ds1.map Diag.name).Nodup)
    (hds1 : ∀ d ∈ ds1, d.Fits { cfg with tot := n } (FxShape q)) (hreads1 : ∀ d ∈ ds1, ∀ name ∈ d.data.reads, name ≠ "xf") :
    ∃ fin', SimCfg.runWith { cfg with tot := n } fxPrepare srcs arr (fxInit q Sp) f0 ds1 = .ok fin' := by
  have hb := (C165_when h hC hv Sp f0 hnd hds hreads).1 ⟨fin, hr⟩
  refine (C165_when (h.lasting n) hC (hv.lasting n) Sp f0 hnd1 hds1 hreads1).2 ?_
  exact hb.all h.bs h.ub h.mbs h.chunk.1 hlcm _

/-- C165, the other way: with fewer samples it runs through as well. -/
theorem C165_shorter (h : FxScene cfg q) (hC : q.bs ≤ cfg.C) (hv : ValidScene cfg srcs arr J) (Sp : IrMat R) (f0 : Fir R)
    {ds0 ds1 : List (Diag (DData R (FxSt R) V))} (hnd : (ds0.map Diag.name).Nodup)
    (hds : ∀ d ∈ ds0, d.Fits cfg (FxShape q)) (hreads : ∀ d ∈ ds0, ∀ name ∈ d.data.reads, name ≠ "xf")
    {fin : SimSt R (Fir R) S A (FxSt R) (DData R (FxSt R) V) (DOut R V)}
    (hr : cfg.runWith fxPrepare srcs arr (fxInit q Sp) f0 ds0 = .ok fin) {n : Nat} (hn : n ≤ cfg.tot)
    (hnd1 : (ds1.map Diag.name).Nodup)
    (hds1 : ∀ d ∈ ds1, d.Fits { cfg with tot := n } (FxShape q)) (hreads1 : ∀ d ∈ ds1, ∀ name ∈ d.data.reads, name ≠ "xf") :
    ∃ fin', SimCfg.runWith { cfg with tot := n } fxPrepare srcs arr (fxInit q Sp) f0 ds1 = .ok fin' := by
  have hb := (C165_when h hC hv Sp f0 hnd hds hreads).1 ⟨fin, hr⟩
  refine (C165_when (h.lasting n) hC (hv.lasting n) Sp f0 hnd1 hds1 hreads1).2 ?_
  exact fun k hk hm => hb k (by change k < n + q.bs at hk; omega) hm

end

/-! ### The sizes of the shipped example

`examples/example_active_noise_control.py`: `sim_buffer` 1000, `sim_chunk_size` 10000,
`block_size` 1, `update_block_size` and filter length 512, and 10000 samples. -/

theorem shipped_reaches (norm : FxNorm) (a b s : List ℚ) (n : Nat) :
    Reaches { fxCfg 1000 10000 (fxDemo 1 512 512 norm) a b s with tot := n } (fxDemo 1 512 512 norm) (512 + 512 - 1) (n + 1) ↔
      n < 150016 := by
  have hidx : ∀ k, SimCfg.indexAt { fxCfg 1000 10000 (fxDemo 1 512 512 norm) a b s with tot := n } k = 1000 + k % 10000 := by
    intro k
    rfl
  constructor
  · intro h
    by_contra hn
    have := h 150016 (by omega) (show 150016 % 1 = 1 - 1 by omega)
    rw [hidx] at this
    have hl : looksBack (fxDemo 1 512 512 norm) (512 + 512 - 1) 150016 = 1023 := by
      unfold looksBack
      rw [if_pos ⟨show 0 < 150016 + 1 - 1 by omega, show 512 ∣ 150016 + 1 - 1 from ⟨293, by omega⟩⟩]
    rw [hl] at this
    omega
  · intro hn k hk _
    rw [hidx]
    unfold looksBack
    split
    · rename_i hc
      obtain ⟨hp, m, hm⟩ := hc
      change 0 < k + 1 - 1 at hp
      change k + 1 - 1 = 512 * m at hm
      have hm' : m < 293 := by omega
      have key : ∀ j < 293, 0 < j → 23 ≤ 512 * j % 10000 := by decide +kernel
      have := key m hm' (by omega)
      have hkm : k = 512 * m := by omega
      rw [hkm]
      omega
    · show 1 ≤ _
      omega

/-- C165 does not hold: with the sizes of the shipped example the simulation runs through
with up to 150015 samples, and raises `ValueError` with more (the update at step 150016
finds 1016 samples before it and looks back 1023). -/
theorem C165_violated : ∃ (q : FxPar ℚ) (cfg : SimCfg ℚ (IrMat ℚ) (Fir ℚ) Nat Unit (FxSt ℚ) (DData ℚ (FxSt ℚ) ℚ) (DOut ℚ ℚ)),
    FxScene cfg q ∧ ValidScene cfg (fun _ => 0) () (fun _ => True) ∧ cfg.B = 1000 ∧ cfg.C = 10000 ∧
      q.bs = 1 ∧ q.ub = 512 ∧ q.L = 512 ∧ ∀ (Sp : IrMat ℚ) (n : Nat),
      (n < 150016 → ∃ fin, SimCfg.runWith { cfg with tot := n } fxPrepare (fun _ => 0) () (fxInit q Sp) demoFilt [] = .ok fin) ∧
      (150016 ≤ n → SimCfg.runWith { cfg with tot := n } fxPrepare (fun _ => 0) () (fxInit q Sp) demoFilt [] = .error .value) := by
  have hS := fxCfg_scene (B := 1000) (C := 10000) (bs := 1) (ub := 512) (L := 512) (norm := .sample) (a := [1]) (b := [1])
    (s := [1]) (by omega) (by omega) ⟨by omega, one_dvd _⟩ ⟨by omega, .inl (by omega)⟩ ⟨by omega, by omega⟩
  have hV := fxCfg_valid 1000 10000 (fxDemo 1 512 512 .sample) [1] [1] [1]
  have hR := shipped_reaches .sample [1] [1] [1]
  refine ⟨fxDemo 1 512 512 .sample, fxCfg 1000 10000 (fxDemo 1 512 512 .sample) [1] [1] [1], hS, hV, rfl, rfl, rfl, rfl, rfl,
    fun Sp n => ⟨fun hn => ?_, fun hn => ?_⟩⟩
  · exact (C165_when (hS.lasting n) (show 1 ≤ 10000 by omega) (hV.lasting n) Sp demoFilt (ds0 := []) List.nodup_nil
      (fun d hd => nomatch hd) (fun d hd => nomatch hd)).2 ((hR n).2 hn)
  · exact C165_raises (hS.lasting n) (show 1 ≤ 10000 by omega) (hV.lasting n) Sp demoFilt (ds0 := []) List.nodup_nil
      (fun d hd => nomatch hd) (fun d hd => nomatch hd) (fun hr => by have := (hR n).1 hr; omega)

/-! ### Examples -/

/-- A buffer of 5 samples, chunks of 6, updates after 4 samples, 3 taps: the update at step 12
is the first of a chunk and finds 5 of the 6 samples it needs. -/
example (a b s : List ℚ) (norm : FxNorm) (Sp : IrMat ℚ) :
    (fxCfg 5 6 (fxDemo 1 4 3 norm) a b s).runWith fxPrepare (fun _ => 0) () (fxInit (fxDemo 1 4 3 norm) Sp) demoFilt (fxAll 3) ≠
        .error .value ∧
      SimCfg.runWith { fxCfg 5 6 (fxDemo 1 4 3 norm) a b s with tot := 12 } fxPrepare (fun _ => 0) ()
        (fxInit (fxDemo 1 4 3 norm) Sp) demoFilt [] = .error .value := by
  have hS := fxCfg_scene (B := 5) (C := 6) (bs := 1) (ub := 4) (L := 3) (norm := norm) (a := a) (b := b)
    (s := s) (by omega) (by omega) ⟨by omega, one_dvd _⟩ ⟨by omega, .inl (by omega)⟩ ⟨by omega, by omega⟩
  have hV := fxCfg_valid 5 6 (fxDemo 1 4 3 norm) a b s
  constructor
  · obtain ⟨fin, hf⟩ := (C165_when hS (show 1 ≤ 6 by omega) hV Sp demoFilt (by simp [fxAll]) (fxAll_fits 5 6 1 4 3 norm a b s (by omega))
      (by
        intro d hd
        simp only [fxAll, List.mem_cons, List.not_mem_nil, or_false] at hd
        rcases hd with rfl | rfl | rfl | rfl | rfl | rfl | rfl | rfl <;> simp [DData.reads])).2 (by
        intro k hk _
        change k < 9 at hk
        unfold looksBack SimCfg.indexAt
        show (if 0 < k + 1 - 1 ∧ 4 ∣ k + 1 - 1 then 6 else 1) ≤ 5 + 1 - 1 + (k + 1 - 1) % 6
        interval_cases k <;> decide)
    rw [hf]
    intro hx
    cases hx
  · exact C165_raises (hS.lasting 12) (show 1 ≤ 6 by omega) (hV.lasting 12) Sp demoFilt (ds0 := []) List.nodup_nil
      (fun d hd => nomatch hd) (fun d hd => nomatch hd) (fun hr => by
        have := hr 12 (by show 12 < 12 + 1; omega) (show 12 % 1 = 1 - 1 by omega)
        revert this
        exact (by decide : ¬ (if 0 < 12 + 1 - 1 ∧ 4 ∣ 12 + 1 - 1 then 6 else 1) ≤ 5 + 1 - 1 + (12 + 1 - 1) % 6))

/-- With a chunk of 8 samples, two updates to a chunk, every update finds as many samples as the
first two: the simulation of 8 samples runs through, so every longer one does. -/
example (a b s : List ℚ) (norm : FxNorm) (Sp : IrMat ℚ) (n : Nat) : ∃ fin,
      SimCfg.runWith { fxCfg 6 8 (fxDemo 1 4 3 norm) a b s with tot := n } fxPrepare (fun _ => 0) ()
        (fxInit (fxDemo 1 4 3 norm) Sp) demoFilt [] = .ok fin := by
  have hS := fxCfg_scene (B := 6) (C := 8) (bs := 1) (ub := 4) (L := 3) (norm := norm) (a := a) (b := b)
    (s := s) (by omega) (by omega) ⟨by omega, one_dvd _⟩ ⟨by omega, .inl (by omega)⟩ ⟨by omega, by omega⟩
  have hV := fxCfg_valid 6 8 (fxDemo 1 4 3 norm) a b s
  obtain ⟨fin, hf⟩ := (C165_when hS (show 1 ≤ 8 by omega) hV Sp demoFilt (ds0 := []) List.nodup_nil
    (fun d hd => nomatch hd) (fun d hd => nomatch hd)).2 (by
        intro k hk _
        change k < 9 at hk
        unfold looksBack SimCfg.indexAt
        show (if 0 < k + 1 - 1 ∧ 4 ∣ k + 1 - 1 then 6 else 1) ≤ 6 + 1 - 1 + (k + 1 - 1) % 8
        interval_cases k <;> decide)
  exact C165_longer_partial hS (show 1 ≤ 8 by omega) hV Sp demoFilt (ds0 := []) (ds1 := []) List.nodup_nil (fun d hd => nomatch hd)
    (fun d hd => nomatch hd) (by show Nat.lcm 4 8 ≤ 8; decide) hf n List.nodup_nil (fun d hd => nomatch hd) (fun d hd => nomatch hd)

end Verif
