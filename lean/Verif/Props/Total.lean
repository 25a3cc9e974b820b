/-
C17, C77: valid setups run to their end, and runs without processor.
-/
import Verif.Lemmas.Fits
import Verif.Props.Recording
import Verif.Props.OpenLoop
namespace Verif

section
variable {R S A P V : Type} [Field R] [DecidableEq R]
  {cfg : SimCfg R (IrMat R) (Fir R) S A P (DData R P V) (DOut R V)} {lp : ProcView R P}
  {srcs : String → S} {arr : A} {proc : P} {J : A → Prop} {K : P → Prop}

/-- C77. A valid setup whose diagnostics fit it (any of the modelled classes) runs to its
end: no step of the preparation or of the main loop raises, no save and no export, for
all admissible buffer, chunk and block sizes. -/
theorem C77_runs_through (had : Admissible cfg lp) (hv : ValidSetup cfg lp srcs arr proc J K)
    (f0 : Fir R) {ds0 : List (Diag (DData R P V))} (hnd : (ds0.map Diag.name).Nodup)
    (hds : ∀ d ∈ ds0, d.Fits cfg K) :
    ∃ fin, cfg.run srcs arr proc f0 ds0 = .ok fin := by
  obtain ⟨_, fin, h⟩ := hv.runs_fits had f0 hnd hds
  exact ⟨fin, h.run⟩

/-- C17 (partial: for `sim_buffer ≥ 4`; smaller buffers violate the property,
see `C17_violated`). A valid setup without processor runs to its end and a
default recording then holds the produced sample at every one of the
`tot_samples` time indices, for every such `sim_buffer` and every positive
`sim_chunk_size`. -/
theorem C17_no_processor_partial (hproc : cfg.proc = none) (hB : 4 ≤ cfg.B) (hC : 1 ≤ cfg.C)
    (hv : ValidSetup cfg lp srcs arr proc J K)
    (f0 : Fir R) {info : DiagInfo} {name sig : String} {ex : Option IdxSel} {numCh num : Nat}
    {chan : Option (List Int)} {rows : List Nat} {d : Diag (DData R P V)}
    (hd : mkRecordSignal info name sig ex none numCh chan = .ok d)
    (hex : ∀ e ∈ d.exportAt.left, 0 ≤ e) (htot : info.tot = cfg.tot) (hpos : 0 < cfg.tot)
    (hsig : cfg.dims sig = some num)
    (hrows : chanRows num chan = some rows) (hlen : rows.length = numCh) (hch : 1 ≤ numCh) :
    ∃ st0 fin, cfg.init srcs arr proc f0 [d] = .ok st0 ∧ cfg.run srcs arr proc f0 [d] = .ok fin ∧
      ∃ d' ∈ fin.diags, d'.name = name ∧ ∃ signal : Mat (Option R),
        d'.data = .recSignal sig chan signal ∧
        signal.length = numCh ∧ ∀ (j c : Nat), rows[j]? = some c → ∃ row, signal[j]? = some row ∧
          row.length = cfg.tot ∧ ∀ t < cfg.tot, ∃ v, cfg.Produced st0 sig c t v ∧
            row[t]? = some (some v) := by
  obtain ⟨h1, h2, h3, h4, h5⟩ := mkRecordSignal_ok hd
  have had : Admissible cfg lp := by
    have hm : cfg.mbs = cfg.B / 4 := by unfold SimCfg.mbs; rw [hproc]
    refine ⟨by omega, by omega, hC, ?_, ?_⟩
    · intro p hp; rw [hproc] at hp; cases hp
    · intro p hp; rw [hproc] at hp; cases hp
  have hsv : d.saveAt = IvCounter.init [(0, (cfg.tot : Int))] := by
    unfold signalSaveAt at h2; rw [htot] at h2; exact (Except.ok.inj h2).symm
  have hrec : d.Records cfg := by
    refine ⟨_, hsv, ⟨le_refl _, by simpa using hpos, trivial⟩, by simp, sig, chan, num, rows, ?_, hsig,
      hrows, ?_, hex⟩
    · rw [h4, htot, hlen]
    · rintro rfl; simp at hlen; omega
  obtain ⟨st0, fin, hrun⟩ := hv.runs_fits had f0 (ds0 := [d]) (by simp) (by simpa using hrec.fits K)
  exact ⟨st0, fin, hrun.init, hrun.run, C01_recording hrun hd (by simp) htot hpos hsig hrows hlen⟩

end

/-! ### A moving source, with and without processor -/

/-- `openCfg` with other sizes. -/
def sizedCfg (B C tot : Nat) : SimCfg ℚ (IrMat ℚ) (Fir ℚ) Nat Nat Unit (DData ℚ Unit ℚ) (DOut ℚ ℚ) :=
  { openCfg with B := B, C := C, tot := tot }

theorem sized_valid (B C tot : Nat) : ValidSetup (sizedCfg B C tot)
    ⟨0, fun p _ => .ok (p, fun _ _ _ => 0)⟩ (fun _ => 0) 0 () (fun _ => True) (fun _ => True) where
  diag := rfl
  filt := rfl
  names := show (openCfg.signalList.map (·.1)).Nodup by decide
  channels := open_pos
  streams := by
    intro a ha
    have : a = ⟨"src", 1, .free, true⟩ := open_free (mem_freeOf ha).1 (mem_freeOf ha).2
    subst this
    exact ⟨_, open_stream 0⟩
  arr0 := trivial
  moves := fun a n _ => ⟨n + 1, rfl, trivial⟩
  paths := by
    intro a _ p hp
    refine ⟨_, rfl, ?_⟩
    have hp' : p ∈ combosOf openCfg.arrays := hp
    rw [show combosOf openCfg.arrays = [(⟨"src", 1, .free, true⟩, ⟨"mic", 1, .mic, false⟩)] from rfl,
      List.mem_singleton] at hp'
    subst hp'
    exact ⟨rfl, rfl⟩
  proc0 := trivial
  acts := by rintro p ⟨⟩

/-- Every buffer size from 4 on and every chunk size. -/
example (B C : Nat) (hB : 4 ≤ B) (hC : 1 ≤ C) : ∃ fin d' row,
    (sizedCfg B C 7).run (fun _ => 0) 0 () demoFilt
      [⟨"rec", IvCounter.init [(0, 7)], IxCounter.init [2, 7], .recSignal "mic" none [List.replicate 7 none]⟩] =
        .ok fin ∧ d' ∈ fin.diags ∧ d'.data = .recSignal "mic" none [row] ∧ row.length = 7 ∧
      ∀ x ∈ row, x.isSome := by
  have hd : mkRecordSignal (R := ℚ) (P := Unit) (V := ℚ) ⟨7, 3, 1⟩ "rec" "mic" (some (.list [2, 7])) none 1 none =
    .ok ⟨"rec", IvCounter.init [(0, 7)], IxCounter.init [2, 7],
      .recSignal "mic" none [List.replicate 7 none]⟩ := rfl
  obtain ⟨st0, fin, h1, h2, d', h3, h4, signal, h5, h6, h7⟩ := C17_no_processor_partial
    (cfg := sizedCfg B C 7) rfl hB hC (sized_valid B C 7) demoFilt hd (by decide) rfl (show 0 < 7 by decide)
    (rows := [0]) (by rfl) (by rfl) rfl (by decide)
  obtain ⟨row, g1, g2, g3⟩ := h7 0 0 rfl
  refine ⟨fin, d', row, h2, h3, ?_, g2, ?_⟩
  · match signal, h6, g1 with
    | [r], _, g1 => cases g1; exact h5
  · intro x hx
    obtain ⟨t, ht, rfl⟩ := List.mem_iff_getElem.1 hx
    obtain ⟨v, _, hv⟩ := g3 t (by rw [g2] at ht; exact ht)
    rw [List.getElem?_eq_getElem ht] at hv
    rw [Option.some.inj hv]
    rfl

/-- What a signal recording holds. -/
def recOf : DData ℚ Unit ℚ → Option (Mat (Option ℚ))
  | .recSignal _ _ m => some m
  | _ => none

instance : DecidableEq (Mat (Option ℚ)) := inferInstance
instance : DecidableEq (List (Option (Mat (Option ℚ)))) := inferInstance

/-- C17 is violated for `sim_buffer < 4`: with `sim_buffer = 3` a run of 8
samples ends normally, but the default recording misses the last two samples,
and samples 3 to 5 are wrong (with `sim_buffer = 8` they are 15, 24, 35). -/
theorem C17_violated :
    (((sizedCfg 3 2 8).run (fun _ => 0) 0 () demoFilt
      [⟨"rec", IvCounter.init [(0, 8)], IxCounter.init [8],
        .recSignal "mic" none [List.replicate 8 none]⟩]).toOption.map
      fun fin => (fin.log.length, fin.diags.map fun d => recOf d.data)) =
      some (0, [some [[some 0, some 3, some 8, some 0, some 23, some 0, none, none]]]) ∧
    (((sizedCfg 8 2 8).run (fun _ => 0) 0 () demoFilt
      [⟨"rec", IvCounter.init [(0, 8)], IxCounter.init [8],
        .recSignal "mic" none [List.replicate 8 none]⟩]).toOption.map
      fun fin => (fin.log.length, fin.diags.map fun d => recOf d.data)) =
      some (1, [some [[some 0, some 3, some 8, some 15, some 24, some 35, some 48, some 63]]]) := by
  constructor <;> decide +kernel

/-! ### with a processor -/

/-- A processor with block size 2 that counts its calls and leaves the
signals alone. -/
def countProc : Proc ℚ Nat where
  bs := 2
  process := fun q sig _ => .ok (q + 1, sig)
  extra := []

/-- Its view: nothing is read from the past, the block stays as it is. -/
def countView : ProcView ℚ Nat where
  H := 0
  act := fun q S => .ok (q + 1, fun k c p => matVal ((S k).getD []) c p)

theorem count_valid (dims : String → Option Nat) : countView.Valid dims (some countProc) := by
  rintro p ⟨⟩ q T i L _ hL
  show Except.ok (q + 1, cut dims T 0 L) = Except.ok (q + 1, _)
  congr 2
  apply cut_congr
  intro k num c t hk hc ht
  unfold Tape.paste
  split
  · rename_i h
    simp only [cut, hk, Option.map_some, Option.getD_some]
    rw [matVal_matOf _ _ _ hc (by simp only [countView, countProc] at h ⊢; omega)]
    congr 1
    simp only [countView]
    omega
  · rfl

def countCfg (B C tot : Nat) : SimCfg ℚ (IrMat ℚ) (Fir ℚ) Nat Nat Nat (DData ℚ Nat ℚ) (DOut ℚ ℚ) where
  B := B
  C := C
  tot := tot
  warm := true
  contrib := true
  plotNone := false
  arrays := [⟨"mic", 1, .mic, false⟩, ⟨"src", 1, .free, true⟩, ⟨"spk", 1, .ctrl, false⟩]
  srcGet := fun p n => .ok (p + n, [(List.range n).map fun k => ((p + k + 1 : Nat) : ℚ)])
  filt := firOps ℚ
  arrUpdate := fun _ n => .ok (n + 1)
  arrPath := fun a _ _ => .ok ⟨1, 1, fun _ _ => [(a : ℚ), 1]⟩
  proc := some countProc
  diag := diagOps ℚ Nat ℚ

theorem count_setup (B C tot : Nat) : ValidSetup (countCfg B C tot) countView (fun _ => 0) 0 0
    (fun _ => True) (fun _ => True) where
  diag := rfl
  filt := rfl
  names := show ((countCfg 0 0 0).signalList.map (·.1)).Nodup by decide
  channels := by
    intro a ha
    simp only [countCfg, List.mem_cons, List.not_mem_nil, or_false] at ha
    rcases ha with rfl | rfl | rfl <;> decide
  streams := by
    intro a ha
    have ha' : a ∈ [(⟨"src", 1, .free, true⟩ : ArrInfo)] := ha
    rw [List.mem_singleton] at ha'
    subst ha'
    exact ⟨_, open_stream 0⟩
  arr0 := trivial
  moves := fun a n _ => ⟨n + 1, rfl, trivial⟩
  paths := by
    intro a _ p hp
    refine ⟨_, rfl, ?_⟩
    have hp' : p ∈ [((⟨"src", 1, .free, true⟩ : ArrInfo), (⟨"mic", 1, .mic, false⟩ : ArrInfo)),
      (⟨"spk", 1, .ctrl, false⟩, ⟨"mic", 1, .mic, false⟩)] := hp
    simp only [List.mem_cons, List.not_mem_nil, or_false] at hp'
    rcases hp' with rfl | rfl <;> exact ⟨rfl, rfl⟩
  proc0 := trivial
  acts := by
    rintro p ⟨⟩ q T a _
    exact ⟨_, _, rfl, trivial⟩

/-- One diagnostic of every class. -/
def countDs (tot : Nat) : List (Diag (DData ℚ Nat ℚ)) :=
  [⟨"rec", IvCounter.init [(0, tot)], IxCounter.init [2, tot], .recSignal "spk" none (matOf 1 tot fun _ _ => none)⟩,
   ⟨"state", IvCounter.init [(1, 2), (3, 4)], IxCounter.init [2, 4],
     .recState (fun q => .ok [(q : ℚ), 1]) (List.replicate 2 (List.replicate 2 none)) (List.replicate 2 0) 0⟩,
   ⟨"power", IvCounter.init [(0, 3), (4, 5)], IxCounter.init [3], .power "mic" (some [-1]) (List.replicate tot none)⟩,
   ⟨"ratio", IvCounter.init [(0, tot)], IxCounter.init [tot],
     .ratio "mic" none "spk" none 4 (List.replicate tot none)⟩,
   ⟨"filter", IvCounter.init [(2, 3)], IxCounter.init [3], .instant (fun q => .ok (q : ℚ)) none⟩,
   ⟨"field", IvCounter.init [(0, 4)], IxCounter.init [4], .sfPower "mic" 4 (List.replicate 1 0)⟩,
   ⟨"spectrum", IvCounter.init [(1, 5)], IxCounter.init [5],
     .spectrum "src" none (fun m => (m.length : ℚ)) (matOf 1 4 fun _ _ => none) 0⟩,
   ⟨"summary", IvCounter.init [(0, 5)], IxCounter.init [5], .summary "mic" none 5 0⟩]

theorem count_fits (B C tot : Nat) (ht : 5 ≤ tot) : ∀ d ∈ countDs tot, d.Fits (countCfg B C tot) (fun _ => True) := by
  have hex : ∀ (x y : Int), 0 ≤ x → 0 ≤ y → ∀ e ∈ [x, y], 0 ≤ e := by
    intro x y hx hy e he
    simp only [List.mem_cons, List.not_mem_nil, or_false] at he
    rcases he with rfl | rfl <;> assumption
  have hone : ∀ (x : Int), 0 ≤ x → ∀ e ∈ [x], 0 ≤ e := by
    intro x hx e he
    rw [List.mem_singleton] at he
    rw [he]; exact hx
  intro d hd
  simp only [countDs, List.mem_cons, List.not_mem_nil, or_false] at hd
  rcases hd with rfl | rfl | rfl | rfl | rfl | rfl | rfl | rfl
  · exact ⟨[(0, (tot : Int))], rfl, ⟨le_refl _, by simp; omega, trivial⟩, by simp [countCfg], hex _ _ (by omega) (by omega),
      .recSignal (rows := [0]) (num := 1) rfl rfl (by simp)⟩
  · exact ⟨[(1, 2), (3, 4)], rfl, by simp [Increasing], by simp [countCfg]; omega, hex _ _ (by omega) (by omega),
      .recState rfl (by decide) (fun p _ => ⟨_, rfl, rfl⟩) (by simp) (by decide)⟩
  · exact ⟨[(0, 3), (4, 5)], rfl, by simp [Increasing], by simp [countCfg]; omega, hone _ (by omega),
      .power (rows := [0]) (num := 1) rfl rfl (by simp)⟩
  · exact ⟨[(0, (tot : Int))], rfl, ⟨le_refl _, by simp; omega, trivial⟩, by simp [countCfg], hone _ (by omega),
      .ratio (ra := [0]) (rb := [0]) (numa := 1) (numb := 1) rfl rfl (by simp) rfl rfl (by simp) (by decide)⟩
  · exact ⟨[(2, 3)], rfl, by simp [Increasing], by simp [countCfg]; omega, hone _ (by omega), .instant rfl fun p _ => ⟨_, rfl⟩⟩
  · exact ⟨[(0, 4)], rfl, by simp [Increasing], by simp [countCfg]; omega, hone _ (by omega), .sfPower rfl rfl⟩
  · exact ⟨[(1, 5)], rfl, by simp [Increasing], by simp [countCfg]; omega, hone _ (by omega),
      .spectrum (rows := [0]) (num := 1) (a := 1) (b := 5) rfl rfl rfl⟩
  · exact ⟨[(0, 5)], rfl, by simp [Increasing], by simp [countCfg]; omega, hone _ (by omega),
      .summary (num := 1) rfl (fun v => ⟨_, rfl⟩) (by decide)⟩

/-- All sizes with `sim_buffer > 2`, every length of the run from 5 on. -/
example (B C tot : Nat) (hB : 3 ≤ B) (hC : 2 ≤ C) (ht : 5 ≤ tot) : ∃ fin,
    (countCfg B C tot).run (fun _ => 0) 0 0 demoFilt (countDs tot) = .ok fin := by
  refine C77_runs_through (cfg := countCfg B C tot) (lp := countView) ⟨show 1 ≤ 2 by decide, hB, show 1 ≤ C by omega, ?_, count_valid _⟩
    (count_setup B C tot) demoFilt (by simp [countDs]) (count_fits B C tot ht)
  rintro p ⟨⟩
  exact ⟨.inl hC, show 0 + 2 ≤ B + 1 by omega⟩

end Verif
