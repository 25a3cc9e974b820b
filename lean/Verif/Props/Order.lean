/-
Property C111: the order in which arrays are added does not matter.
-/
import Verif.Lemmas.PermRun
import Verif.Props.Observe
namespace Verif

section
variable {F K R S P D O G : Type} [Field K] [LinearOrder K] [CommRing R]

/-- C111: two collections with the same arrays, path types and given paths, but with the
arrays in different order, give the same simulation: if one completes so does the other, and
all signals, sources, filters, impulse responses, the processor, the diagnostics and the
exported results are the same.  The sums over the sources are taken in another order, so the
samples must be elements of a commutative ring.  The image-source method must be
deterministic, and no path may be of type "random", as all random responses come from one
generator. -/
theorem C111_run (base : SimCfg R (IrMat R) F S (G × Coll (K × K × K) (IrMat R)) P D O) (ext : RoomExt K R G)
    (i : RoomInfo K) (g : G) (c c' : Coll (K × K × K) (IrMat R)) (srcs : String → S) (proc : P) (f0 : F)
    (ds : List (Diag D)) (hc : c.Consistent) (hc' : c'.Consistent) (harr : c.arrays.Perm c'.arrays)
    (hfreq : c.freq = c'.freq) (hty : c.types = c'.types) (hpa : c.paths = c'.paths)
    (hrir : ∀ b g g' ss ms, (ext.rir b g ss ms).2 = (ext.rir b g' ss ms).2)
    (hrand : ∀ s m, c.types s m ≠ some "random")
    {fin : SimSt R F S (G × Coll (K × K × K) (IrMat R)) P D O}
    (h : simulate base ext i g c srcs proc f0 ds = .ok fin) :
    ∃ fin', simulate base ext i g c' srcs proc f0 ds = .ok fin' ∧
      fin'.eng.sig = fin.eng.sig ∧ fin'.eng.srcs = fin.eng.srcs ∧ fin'.eng.filts = fin.eng.filts ∧
      fin'.eng.proc = fin.eng.proc ∧ fin'.eng.arr.2.paths = fin.eng.arr.2.paths ∧
      fin'.eng.arr.2.types = fin.eng.arr.2.types ∧ fin.eng.arr.2.arrays.Perm fin'.eng.arr.2.arrays ∧
      fin'.idx = fin.idx ∧ fin'.n = fin.n ∧ fin'.diags = fin.diags ∧ fin'.log = fin.log := by
  obtain ⟨fin', h1, hr⟩ := simulate_perm (fun a b c => add_right_comm a b c) hc hc' harr hfreq hty hpa hrir hrand h
  exact ⟨fin', h1, funext fun k => (hr.eng.sig k rfl).symm, hr.eng.srcs.symm,
    funext fun s => funext fun m => (hr.eng.filts s m rfl).symm, hr.eng.proc.symm, hr.eng.arr.perm.paths.symm,
    hr.eng.arr.perm.types.symm, hr.eng.arr.perm.arrays, hr.idx.symm, hr.n.symm, hr.diags.symm, hr.log.symm⟩

/-- C111: adding arrays with different names in any order gives collections that meet the
hypotheses of `C111_run`. -/
theorem C111_setup {Pt H : Type} (f : Nat) {as as' : List (Arr Pt)} (hp : as.Perm as') (hn : (as.map Arr.name).Nodup)
    (hk : ∀ a ∈ as, a.kind ≠ none) (t : String) {c c' : Coll Pt H}
    (hc : c = ((Coll.empty f).addAll as).setDefault t) (hc' : c' = ((Coll.empty f).addAll as').setDefault t) :
    c.Consistent ∧ c'.Consistent ∧ c.arrays = as ∧ c'.arrays = as' ∧ c.freq = c'.freq ∧ c.types = c'.types ∧
      c.paths = c'.paths := by
  have hk' : ∀ a ∈ as', a.kind ≠ none := fun a ha => hk a (hp.mem_iff.2 ha)
  have hn' : (as'.map Arr.name).Nodup := (hp.map _).nodup_iff.1 hn
  have c1 := (Coll.addAll_spec as (Coll.empty_consistent (Pt := Pt) (H := H) f) hk).1
  have c2 := (Coll.addAll_spec as' (Coll.empty_consistent (Pt := Pt) (H := H) f) hk').1
  have a1 : ((Coll.empty f : Coll Pt H).addAll as).arrays = as := by
    rw [addAll_fresh as _ (by simpa [Coll.empty] using hn)]; simp [Coll.empty]
  have a2 : ((Coll.empty f : Coll Pt H).addAll as').arrays = as' := by
    rw [addAll_fresh as' _ (by simpa [Coll.empty] using hn')]; simp [Coll.empty]
  obtain ⟨p1, t1, f1⟩ := addAll_frame as (Coll.empty f : Coll Pt H)
  obtain ⟨p2, t2, f2⟩ := addAll_frame as' (Coll.empty f : Coll Pt H)
  obtain ⟨⟨ty1, e1⟩, -⟩ := setDefault_spec t ((Coll.empty f : Coll Pt H).addAll as)
  obtain ⟨⟨ty2, e2⟩, -⟩ := setDefault_spec t ((Coll.empty f : Coll Pt H).addAll as')
  subst hc hc'
  refine ⟨Coll.setDefault_consistent c1 t, Coll.setDefault_consistent c2 t, ?_, ?_, ?_,
    setDefault_perm c1 c2 (by rw [a1, a2]; exact hp) (t1.trans t2.symm) (p1.trans p2.symm) t, ?_⟩
  · rw [e1]; exact a1
  · rw [e2]; exact a2
  · rw [e1, e2]; exact f1.trans f2.symm
  · rw [e1, e2]; exact p1.trans p2.symm

end

/-! ### the box with two microphones -/

/-- The arrays of the box, with the additional microphone added last. -/
def boxColl3 (t : String) : Coll (ℚ × ℚ × ℚ) (IrMat ℚ) := ((Coll.empty 2).addAll (boxArrays ++ [boxMic])).setDefault t

theorem box_order : (boxMic :: boxArrays).Perm (boxArrays ++ [boxMic]) := (List.perm_append_singleton _ _).symm

/-- With image-source responses the order does not matter. -/
example : ∃ fin fin', boxSim boxInfo (boxColl2 "ism") = .ok fin ∧ boxSim boxInfo (boxColl3 "ism") = .ok fin' ∧
    (boxColl2 "ism").arrays ≠ (boxColl3 "ism").arrays ∧
    fin'.eng.sig = fin.eng.sig ∧ fin.eng.sig "mic" ≠ none ∧ fin.eng.sig "first" ≠ none := by
  have hx : (match boxSim boxInfo (boxColl2 "ism") with
      | .ok fin => (fin.eng.sig "mic").isSome && (fin.eng.sig "first").isSome
      | _ => false) = true := by decide +kernel
  obtain ⟨h1, h2, h3, h4, h5, h6, h7⟩ := C111_setup (H := IrMat ℚ) 2 box_order (by decide) (by
    intro a ha
    simp only [boxArrays, List.mem_cons, List.not_mem_nil, or_false] at ha
    rcases ha with rfl | rfl | rfl <;> simp [boxMic]) "ism" (c := boxColl2 "ism") (c' := boxColl3 "ism") rfl rfl
  cases h : boxSim boxInfo (boxColl2 "ism") with
  | error x => rw [h] at hx; cases hx
  | ok fin =>
    rw [h] at hx
    simp only [Bool.and_eq_true] at hx
    obtain ⟨fin', k1, k2, -⟩ := C111_run boxBase boxExt boxInfo 0 (boxColl2 "ism") (boxColl3 "ism") (fun _ => 0) () demoFilt []
      h1 h2 (by rw [h3, h4]; exact box_order) h5 h6 h7 (fun _ _ _ _ _ => rfl)
      (by
        intro s m
        have : (boxColl2 "ism").types s m = if s = "src" ∧ m = "mic" then some "ism" else
          if s = "src" ∧ m = "first" then some "ism" else none := rfl
        rw [this]
        split
        · decide
        · split
          · decide
          · simp) h
    refine ⟨fin, fin', rfl, k1, ?_, k2, fun e => by rw [e] at hx; simp at hx, fun e => by rw [e] at hx; simp at hx⟩
    rw [h3, h4]
    intro e
    have := congrArg (fun l => (l.map Arr.name).head?) e
    exact absurd this (by decide)

/-- C111, the exception: with random responses the order in which the microphones are added
changes the recorded signals, as the responses are drawn one after the other. -/
theorem C111_random : (boxColl2 "random").arrays.Perm (boxColl3 "random").arrays ∧
    micBuffer ((boxSim boxInfo (boxColl2 "random")).map observe) ≠
    micBuffer ((boxSim boxInfo (boxColl3 "random")).map observe) :=
  ⟨box_order, by decide +kernel⟩

end Verif
