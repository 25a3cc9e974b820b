/-
C185, C186, C187: the order of the arrays, silent sources and trajectories that stay, with adaptive
noise control.
-/
import Verif.Lemmas.StillWith
import Verif.Props.ObserveWith
import Verif.Props.Mute
namespace Verif

section
variable {F K R S D O G : Type} [Field K] [LinearOrder K] [Field R]
  {ext : RoomExt K R G} {i : RoomInfo K} {g : G} {c c' : Coll (K × K × K) (IrMat R)} {srcs : String → S}
  {bs ub L : Nat} {mu beta : R} {norm : FxNorm} {f0 : F}

/-- The simulations that end in `fin` and `fin'` differ in the order of the arrays only. -/
structure SameOrdered {P : Type} (fin fin' : SimSt R F S (G × Coll (K × K × K) (IrMat R)) P D O) : Prop where
  sig : fin'.eng.sig = fin.eng.sig
  srcs : fin'.eng.srcs = fin.eng.srcs
  filts : fin'.eng.filts = fin.eng.filts
  proc : fin'.eng.proc = fin.eng.proc
  paths : fin'.eng.arr.2.paths = fin.eng.arr.2.paths
  types : fin'.eng.arr.2.types = fin.eng.arr.2.types
  arrays : fin.eng.arr.2.arrays.Perm fin'.eng.arr.2.arrays
  idx : fin'.idx = fin.idx
  n : fin'.n = fin.n
  diags : fin'.diags = fin.diags
  log : fin'.log = fin.log

omit [Field K] [LinearOrder K] [Field R] in
theorem SameOrdered.of {P : Type} {fin fin' : SimSt R F S (G × Coll (K × K × K) (IrMat R)) P D O} {ok : String → Prop} {Pd : D → Prop}
    (hr : StRel (fun _ => false) (CFull ok) Pd fin fin') : SameOrdered fin fin' :=
  ⟨funext fun k => (hr.eng.sig k rfl).symm, hr.eng.srcs.symm,
    funext fun s => funext fun m => (hr.eng.filts s m rfl).symm, hr.eng.proc.symm, hr.eng.arr.perm.paths.symm,
    hr.eng.arr.perm.types.symm, hr.eng.arr.perm.arrays, hr.idx.symm, hr.n.symm, hr.diags.symm, hr.log.symm⟩

/-- C185, FxLMS: if a simulation completes, then it completes as well with the arrays in another order, and everything
is the same.  The diagnostics must not depend on the order of the arrays; the image-source method must be
deterministic, and no path may be of type "random". -/
theorem C185_fxlms (base : SimCfg R (IrMat R) F S (G × Coll (K × K × K) (IrMat R)) (FxSt R) D O)
    (hc : c.Consistent) (hc' : c'.Consistent) (harr : c.arrays.Perm c'.arrays)
    (hfreq : c.freq = c'.freq) (hty : c.types = c'.types) (hpa : c.paths = c'.paths)
    (hrir : ∀ b g g' ss ms, (ext.rir b g ss ms).2 = (ext.rir b g' ss ms).2)
    (hrand : ∀ s m, c.types s m ≠ some "random")
    {diags : Coll (K × K × K) (IrMat R) → Except PyErr (List (Diag D))}
    (hdiags : ∀ c1 c2 : Coll (K × K × K) (IrMat R), c1.Consistent → c2.Consistent → c1.arrays.Perm c2.arrays → diags c2 = diags c1)
    {fin : SimSt R F S (G × Coll (K × K × K) (IrMat R)) (FxSt R) D O}
    (h : ancSimulate base ext i g c srcs bs ub L mu beta norm f0 diags = .ok fin) :
    ∃ fin', ancSimulate base ext i g c' srcs bs ub L mu beta norm f0 diags = .ok fin' ∧ SameOrdered fin fin' := by
  unfold ancSimulate at h ⊢
  cases hset : roomSetup ext i g c with
  | error x => rw [hset] at h; cases h
  | ok r =>
    obtain ⟨par, gc⟩ := r
    rw [hset] at h
    dsimp only at h
    cases hp : Coll.path gc "loudspeaker" "error" with
    | error x => rw [hp] at h; cases h
    | ok sp =>
      rw [hp] at h
      dsimp only at h
      cases hq : fxCreate gc.2.arrays bs ub L mu beta norm with
      | error x => rw [hq] at h; cases h
      | ok q =>
        rw [hq] at h
        dsimp only at h
        cases hd : diags gc.2 with
        | error x => rw [hd] at h; cases h
        | ok ds =>
          rw [hd] at h
          dsimp only at h
          obtain ⟨gc', k1, k2, fin', k3, k4⟩ := room_runWith_perm (fun a b c => add_right_comm a b c) hc hc' harr hfreq hty hpa hrir hrand hset
            (cfg := { base with
              arrays := c.infos, arrUpdate := Coll.update (createPath (i.cfg ext par)), arrPath := Coll.path
              proc := some (fxProc q) }) rfl rfl rfl h
          rw [k1]
          dsimp only
          have hp' : Coll.path gc' "loudspeaker" "error" = .ok sp := by
            rw [← hp]
            unfold Coll.path
            rw [k2.paths]
          rw [hp']
          dsimp only
          rw [fxCreate_nums (fun nm _ => numOfArray_perm k2.cons k2.cons' k2.arrays nm), hq]
          dsimp only
          rw [hdiags gc.2 gc'.2 k2.cons k2.cons' k2.arrays, hd]
          exact ⟨fin', k3, .of k4⟩

/-- C185, FastBlockFxLMS: the same. -/
theorem C185_fast (base : SimCfg R (IrMat R) F S (G × Coll (K × K × K) (IrMat R)) (FastSt R) D O)
    (hc : c.Consistent) (hc' : c'.Consistent) (harr : c.arrays.Perm c'.arrays)
    (hfreq : c.freq = c'.freq) (hty : c.types = c'.types) (hpa : c.paths = c'.paths)
    (hrir : ∀ b g g' ss ms, (ext.rir b g ss ms).2 = (ext.rir b g' ss ms).2)
    (hrand : ∀ s m, c.types s m ≠ some "random")
    {diags : Coll (K × K × K) (IrMat R) → Except PyErr (List (Diag D))}
    (hdiags : ∀ c1 c2 : Coll (K × K × K) (IrMat R), c1.Consistent → c2.Consistent → c1.arrays.Perm c2.arrays → diags c2 = diags c1)
    {fin : SimSt R F S (G × Coll (K × K × K) (IrMat R)) (FastSt R) D O}
    (h : realSimulate base ext i g c srcs bs L mu beta f0 diags = .ok fin) :
    ∃ fin', realSimulate base ext i g c' srcs bs L mu beta f0 diags = .ok fin' ∧ SameOrdered fin fin' := by
  unfold realSimulate at h ⊢
  cases hset : roomSetup ext i g c with
  | error x => rw [hset] at h; cases h
  | ok r =>
    obtain ⟨par, gc⟩ := r
    rw [hset] at h
    dsimp only at h
    cases hp : Coll.path gc "loudspeaker" "error" with
    | error x => rw [hp] at h; cases h
    | ok sp =>
      rw [hp] at h
      dsimp only at h
      cases hq : fastCreate gc.2.arrays bs L mu beta with
      | error x => rw [hq] at h; cases h
      | ok q =>
        rw [hq] at h
        dsimp only at h
        cases hd : diags gc.2 with
        | error x => rw [hd] at h; cases h
        | ok ds =>
          rw [hd] at h
          dsimp only at h
          obtain ⟨gc', k1, k2, fin', k3, k4⟩ := room_runWith_perm (fun a b c => add_right_comm a b c) hc hc' harr hfreq hty hpa hrir hrand hset
            (cfg := { base with
              arrays := c.infos, arrUpdate := Coll.update (createPath (i.cfg ext par)), arrPath := Coll.path
              proc := some (fastProc q) }) rfl rfl rfl h
          rw [k1]
          dsimp only
          have hp' : Coll.path gc' "loudspeaker" "error" = .ok sp := by
            rw [← hp]
            unfold Coll.path
            rw [k2.paths]
          rw [hp']
          dsimp only
          have hq' : fastCreate gc'.2.arrays bs L mu beta = .ok q := by
            rw [← hq]
            exact fxCreate_nums (fun nm _ => numOfArray_perm k2.cons k2.cons' k2.arrays nm) _ _ _ _ _ _
          rw [hq']
          dsimp only
          rw [hdiags gc.2 gc'.2 k2.cons k2.cons' k2.arrays, hd]
          exact ⟨fin', k3, .of k4⟩

end

section
variable {K R : Type}

theorem op_perm {c c' : Coll (K × K × K) (IrMat R)} (hc : c.Consistent) (hc' : c'.Consistent) (h : c.arrays.Perm c'.arrays)
    (hty : c.types = c'.types) (hpa : c.paths = c'.paths) (o : PathOp R) :
    (c.op o).types = (c'.op o).types ∧ (c.op o).paths = (c'.op o).paths := by
  have h1 : ∀ s, s ∈ c.srcs ↔ s ∈ c'.srcs := fun s => by rw [hc.mem_srcs, hc'.mem_srcs]; simp only [h.mem_iff]
  have h2 : ∀ s, s ∈ c.mics ↔ s ∈ c'.mics := fun s => by rw [hc.mem_mics, hc'.mem_mics]; simp only [h.mem_iff]
  cases o with
  | path x s m =>
    unfold Coll.op Coll.setPropPath
    dsimp only
    rw [← find_perm hc hc' h, ← find_perm hc hc' h]
    by_cases hs : s ∈ c.srcs
    · by_cases hm : m ∈ c.mics
      · rw [if_neg (not_not.2 hs), if_neg (not_not.2 hm), if_neg (not_not.2 ((h1 s).1 hs)), if_neg (not_not.2 ((h2 m).1 hm))]
        split
        · split
          · exact ⟨hty, hpa⟩
          · split
            · exact ⟨hty, hpa⟩
            · exact ⟨hty, by simp [Except.toOption, hpa]⟩
        · exact ⟨hty, hpa⟩
      · rw [if_neg (not_not.2 hs), if_pos hm, if_neg (not_not.2 ((h1 s).1 hs)), if_pos fun e => hm ((h2 m).2 e)]
        exact ⟨hty, hpa⟩
    · rw [if_pos hs, if_pos fun e => hs ((h1 s).2 e)]
      exact ⟨hty, hpa⟩
  | type s m t =>
    unfold Coll.op Coll.setPathType
    dsimp only
    by_cases hs : s ∈ c.srcs
    · by_cases hm : m ∈ c.mics
      · rw [if_neg (not_not.2 hs), if_neg (not_not.2 hm), if_neg (not_not.2 ((h1 s).1 hs)), if_neg (not_not.2 ((h2 m).1 hm))]
        exact ⟨by simp [Except.toOption, hty], hpa⟩
      · rw [if_neg (not_not.2 hs), if_pos hm, if_neg (not_not.2 ((h1 s).1 hs)), if_pos fun e => hm ((h2 m).2 e)]
        exact ⟨hty, hpa⟩
    · rw [if_pos hs, if_pos fun e => hs ((h1 s).2 e)]
      exact ⟨hty, hpa⟩

theorem ops_perm : ∀ (os : List (PathOp R)) {c c' : Coll (K × K × K) (IrMat R)}, c.Consistent → c'.Consistent → c.arrays.Perm c'.arrays →
    c.types = c'.types → c.paths = c'.paths →
    (os.foldl Coll.op c).Consistent ∧ (os.foldl Coll.op c').Consistent ∧
      (os.foldl Coll.op c).types = (os.foldl Coll.op c').types ∧ (os.foldl Coll.op c).paths = (os.foldl Coll.op c').paths
  | [], _, _, hc, hc', _, hty, hpa => ⟨hc, hc', hty, hpa⟩
  | o :: os, c, c', hc, hc', h, hty, hpa => by
    obtain ⟨k1, k2⟩ := op_perm hc hc' h hty hpa o
    obtain ⟨p, ty, e⟩ := c.op_frame o
    obtain ⟨p', ty', e'⟩ := c'.op_frame o
    rw [List.foldl_cons, List.foldl_cons]
    refine ops_perm os ?_ ?_ ?_ k1 k2
    · rw [e]; exact ⟨hc.names, hc.kinds, hc.mics, hc.srcs, hc.frees⟩
    · rw [e']; exact ⟨hc'.names, hc'.kinds, hc'.mics, hc'.srcs, hc'.frees⟩
    · rw [e, e']; exact h

/-- C185: arrays with different names, added in any order, and then the same impulse responses and path types set by
the user, give collections that meet the hypotheses of the theorems. -/
theorem C185_setup (freq : Nat) {as as' : List (Arr (K × K × K))} (hp : as.Perm as') (hn : (as.map Arr.name).Nodup)
    (hk : ∀ a ∈ as, a.kind ≠ none) (os : List (PathOp R)) (t : String) {c c' : Coll (K × K × K) (IrMat R)}
    (hc : c = planned freq as os t) (hc' : c' = planned freq as' os t) :
    c.Consistent ∧ c'.Consistent ∧ c.arrays = as ∧ c'.arrays = as' ∧ c.freq = c'.freq ∧ c.types = c'.types ∧
      c.paths = c'.paths := by
  have hk' : ∀ a ∈ as', a.kind ≠ none := fun a ha => hk a (hp.mem_iff.2 ha)
  have hn' : (as'.map Arr.name).Nodup := (hp.map _).nodup_iff.1 hn
  have c1 := (Coll.addAll_spec as (Coll.empty_consistent (Pt := K × K × K) (H := IrMat R) freq) hk).1
  have c2 := (Coll.addAll_spec as' (Coll.empty_consistent (Pt := K × K × K) (H := IrMat R) freq) hk').1
  have a1 : ((Coll.empty freq : Coll (K × K × K) (IrMat R)).addAll as).arrays = as := by
    rw [addAll_fresh as _ (by simpa [Coll.empty] using hn)]; simp [Coll.empty]
  have a2 : ((Coll.empty freq : Coll (K × K × K) (IrMat R)).addAll as').arrays = as' := by
    rw [addAll_fresh as' _ (by simpa [Coll.empty] using hn')]; simp [Coll.empty]
  obtain ⟨p1, t1, f1⟩ := addAll_frame as (Coll.empty freq : Coll (K × K × K) (IrMat R))
  obtain ⟨p2, t2, f2⟩ := addAll_frame as' (Coll.empty freq : Coll (K × K × K) (IrMat R))
  obtain ⟨o1, o2, o3, o4⟩ := ops_perm os c1 c2 (by rw [a1, a2]; exact hp) (t1.trans t2.symm) (p1.trans p2.symm)
  obtain ⟨p3, t3, e3⟩ := ops_frame os ((Coll.empty freq : Coll (K × K × K) (IrMat R)).addAll as)
  obtain ⟨p4, t4, e4⟩ := ops_frame os ((Coll.empty freq : Coll (K × K × K) (IrMat R)).addAll as')
  obtain ⟨⟨ty1, e1⟩, -⟩ := setDefault_spec t (os.foldl Coll.op ((Coll.empty freq : Coll (K × K × K) (IrMat R)).addAll as))
  obtain ⟨⟨ty2, e2⟩, -⟩ := setDefault_spec t (os.foldl Coll.op ((Coll.empty freq : Coll (K × K × K) (IrMat R)).addAll as'))
  have b1 : (os.foldl Coll.op ((Coll.empty freq : Coll (K × K × K) (IrMat R)).addAll as)).arrays = as := by rw [e3]; exact a1
  have b2 : (os.foldl Coll.op ((Coll.empty freq : Coll (K × K × K) (IrMat R)).addAll as')).arrays = as' := by rw [e4]; exact a2
  subst hc hc'
  unfold planned
  refine ⟨Coll.setDefault_consistent o1 t, Coll.setDefault_consistent o2 t, ?_, ?_, ?_,
    setDefault_perm o1 o2 (by rw [b1, b2]; exact hp) o3 o4 t, ?_⟩
  · rw [e1]; exact b1
  · rw [e2]; exact b2
  · rw [e1, e2, e3, e4]; exact f1.trans f2.symm
  · rw [e1, e2]; exact o4

end

section
variable {K R P V : Type} [Field R] [DecidableEq R]

omit [Field R] [DecidableEq R] in
/-- The diagnostics of the example depend on the numbers of microphones and on whether there is an array "eval" only. -/
theorem ancDiagnostics_same {Pt : Type} {as as' : List (Arr Pt)} (h : ∀ nm ∈ ["ref", "error", "loudspeaker"], numOfArray as' nm = numOfArray as nm)
    (he : (as'.any fun a => a.name == "eval") = as.any fun a => a.name == "eval") (info : DiagInfo) (get : P → Except PyErr V) :
    (ancDiagnostics info as' get : Except PyErr (List (Diag (DData R P V)))) = ancDiagnostics info as get := by
  unfold ancDiagnostics
  rw [h _ (by simp), h _ (by simp), h _ (by simp), he]

end

section
variable {K R G S V : Type} [Field K] [LinearOrder K] [Field R] [DecidableEq R]
  {ext : RoomExt K R G} {i : RoomInfo K} {freq : Nat}

omit [Field K] [LinearOrder K] [DecidableEq R] in
theorem ancDiagnostics_perm {P : Type} (info : DiagInfo) (get : P → Except PyErr V) (c1 c2 : Coll (K × K × K) (IrMat R)) (h1 : c1.Consistent)
    (h2 : c2.Consistent) (h : c1.arrays.Perm c2.arrays) :
    (ancDiagnostics info c2.arrays get : Except PyErr (List (Diag (DData R P V)))) = ancDiagnostics info c1.arrays get := by
  refine ancDiagnostics_same (fun nm _ => numOfArray_perm h1 h2 h nm) ?_ info get
  rw [Bool.eq_iff_iff, List.any_eq_true, List.any_eq_true]
  simp only [h.mem_iff]

/-- C185 for the shipped script `example_active_noise_control_real_data.py`: in whatever order its five arrays are added, for up
to 150015 samples it runs to its end, with the same control filter, signals, recordings and exports. -/
theorem C185_shipped {hm he : IrMat R} {pm pe pl : List (K × K × K)} {pr pn : K × K × K}
    (h1 : hm.numIn = pl.length ∧ hm.numOut = pm.length) (h2 : he.numIn = pl.length ∧ he.numOut = pe.length)
    (hpm : pm ≠ []) (hpe : pe ≠ []) (hpl : pl ≠ []) (hfreq : 1 ≤ freq) (hdims : i.dims = 3)
    (hrev : 0 < i.rt60 → ∃ r, ext.inverseSabine i.rt60 i.size = .ok r) (hext : ∀ par, (i.cfg ext par).Lawful)
    (hrir : ∀ b g g' ss ms, (ext.rir b g ss ms).2 = (ext.rir b g' ss ms).2)
    (base : SimCfg R (IrMat R) (Fir R) S (G × Coll (K × K × K) (IrMat R)) (FastSt R) (DData R (FastSt R) V) (DOut R V))
    (hdiag : base.diag = diagOps R (FastSt R) V) (hfilt : base.filt = firOps R) (hB : base.B = 1000) (hC : base.C = 10000)
    (htot : 0 < base.tot ∧ base.tot < 150016) (hcon : base.contrib = true) {srcs : String → S} {x : Nat → Nat → R}
    (hx : IsStream base.srcGet (srcs "noise") 1 x) {mu beta : R}
    (hreg : ∀ l : List R, (l.map fun x => x * x).sum + beta ≠ 0) {info : DiagInfo}
    (hi : info.tot = base.tot) (hf : 0 < info.exportFreq) (hs : info.smoothing ≠ 0) (v : V) (f0 : Fir R) (g : G)
    {as' : List (Arr (K × K × K))} (hp : (realArrays pm pe pr pl pn).Perm as') :
    ∃ fin fin', realSimulate base ext i g (planned freq (realArrays pm pe pr pl pn) (realOps hm he) "ism") srcs 1 512 mu beta f0
        (fun c => ancDiagnostics info c.arrays fun _ => .ok v) = .ok fin ∧
      realSimulate base ext i g (planned freq as' (realOps hm he) "ism") srcs 1 512 mu beta f0
        (fun c => ancDiagnostics info c.arrays fun _ => .ok v) = .ok fin' ∧ SameOrdered fin fin' := by
  obtain ⟨fin, k1⟩ := (C176_shipped (pr := pr) (pn := pn) h1 h2 hpm hpe hpl hfreq hdims hrev hext base hdiag hfilt hB hC htot.1 hcon hx
    (mu := mu) (beta := beta) hreg hi hf hs v f0 g).1 htot.2
  have hplan := realArrays_plan (pr := pr) (pn := pn) (i := i) (ext := ext) h1 h2 hpm hpe hpl hfreq hdims hrev hext
  obtain ⟨a1, a2, a3, a4, a5, a6, a7⟩ := C185_setup freq hp hplan.names hplan.kinds (realOps hm he) "ism" rfl rfl
  obtain ⟨fin', k2, k3⟩ := C185_fast base a1 a2 (by rw [a3, a4]; exact hp) a5 a6 a7 hrir
    (by
      intro s m h
      have := planned_types h
      simp [realOps] at this) (fun c1 c2 => ancDiagnostics_perm info _ c1 c2) k1
  exact ⟨fin, fin', k1, k2, k3⟩

end

/-! ### silent sources -/

section
variable {K R S V G : Type} [Field K] [LinearOrder K] [Field R] [DecidableEq R]
  {ext : RoomExt K R G} {i : RoomInfo K} {g : G} {c : Coll (K × K × K) (IrMat R)} {srcs : String → S}
  {bs ub L : Nat} {mu beta : R} {norm : FxNorm} {f0 : Fir R} {M : List String}

/-- The simulation that ends in `fin'` is the one that ends in `fin`, except for the signals of `hid`, which are zero, and the
sources `M`. -/
structure SameButSilent {P D O : Type} (hid : String → Bool) (M : List String)
    (fin fin' : SimSt R (Fir R) S (G × Coll (K × K × K) (IrMat R)) P D O) : Prop where
  sig : ∀ k, hid k = false → fin'.eng.sig k = fin.eng.sig k
  quiet : ∀ k m, hid k = true → fin.eng.sig k = some m → Zeros m
  filts : ∀ s m, hid s = false → fin'.eng.filts s m = fin.eng.filts s m
  paths : ∀ s m, s ∉ M → fin'.eng.arr.2.paths s m = fin.eng.arr.2.paths s m
  srcs : ∀ s, hid s = false → fin'.eng.srcs s = fin.eng.srcs s
  proc : fin'.eng.proc = fin.eng.proc
  idx : fin'.idx = fin.idx
  n : fin'.n = fin.n
  diags : fin'.diags = fin.diags
  log : fin'.log = fin.log

omit [Field K] [LinearOrder K] [DecidableEq R] in
theorem SameButSilent.of {P D O : Type} {hid : String → Bool} {I : S → Prop} {as : List ArrInfo} {ok : String → Prop} {Pd : D → Prop}
    {fin fin' : SimSt R (Fir R) S (G × Coll (K × K × K) (IrMat R)) P D O}
    (hr : StRelS hid I as (SFull M.contains ok) Pd fin fin') : SameButSilent hid M fin fin' :=
  ⟨fun k hk => (hr.eng.sig k hk).symm, hr.eng.quiet, fun s m hm => (hr.eng.filts s m hm).symm,
    fun s m hm => (hr.eng.arr.1.paths s m (by simpa using hm)).symm, fun s hs => (hr.eng.srcs s hs).symm, hr.eng.proc.symm,
    hr.idx.symm, hr.n.symm, hr.diags.symm, hr.log.symm⟩

omit [Field K] [LinearOrder K] [Field R] [DecidableEq R] in
theorem numOfArray_mute {okT : String → Prop} {gc gc' : G × Coll (K × K × K) (IrMat R)}
    (h : SRel M.contains okT gc gc') {nm : String} (hn : M.contains nm = false) : numOfArray gc'.2.arrays nm = numOfArray gc.2.arrays nm := by
  have := h.find hn
  unfold Coll.find at this
  unfold numOfArray
  rw [this]

/-- C186, FxLMS: leaving out silent sources that are not called "loudspeaker" changes nothing else.  If the simulation completes,
it completes as well without the sources `M`, all of which are silent: free sources that deliver nothing but zeros, or
controllable sources, to which the processor writes nothing.  The diagnostics must not use their signals and must be the
same without them. -/
theorem C186_fxlms
    (base : SimCfg R (IrMat R) (Fir R) S (G × Coll (K × K × K) (IrMat R)) (FxSt R) (DData R (FxSt R) V) (DOut R V))
    (hfilt : base.filt = firOps R) (hdiag : base.diag = diagOps R (FxSt R) V) (hc : c.Consistent) (hM : ∀ s ∈ M, s ∈ c.srcs)
    (hls : "loudspeaker" ∈ c.srcs) (hsil : ∀ s ∈ M, s ∈ c.frees → Silent base.srcGet (srcs s))
    (hrir : ∀ b g g' ss ms, (ext.rir b g ss ms).2 = (ext.rir b g' ss ms).2)
    (hrand : ∀ s m, s ∉ M → c.types s m ≠ some "random")
    (hused : ∀ k ∈ ["ref", "error", "loudspeaker", "xf"], signalFrom base.contrib c.infos M k = false)
    {diags : Coll (K × K × K) (IrMat R) → Except PyErr (List (Diag (DData R (FxSt R) V)))}
    (hdiags : ∀ c1 c2 : Coll (K × K × K) (IrMat R), c2.arrays = c1.arrays.filter (fun a => !M.contains a.name) → ∀ ds, diags c1 = .ok ds →
      diags c2 = .ok ds ∧ ∀ d ∈ ds, ∀ k ∈ d.data.reads, signalFrom base.contrib c.infos M k = false)
    {fin : SimSt R (Fir R) S (G × Coll (K × K × K) (IrMat R)) (FxSt R) (DData R (FxSt R) V) (DOut R V)}
    (h : ancSimulate base ext i g c srcs bs ub L mu beta norm f0 diags = .ok fin) :
    ∃ fin', ancSimulate base ext i g (c.withoutSrc M) srcs bs ub L mu beta norm f0 diags = .ok fin' ∧
      SameButSilent (signalFrom base.contrib c.infos M) M fin fin' := by
  have u1 := hused "ref" (by simp)
  have u2 := hused "error" (by simp)
  have u3 := hused "loudspeaker" (by simp)
  have u4 := hused "xf" (by simp)
  have hM' : ∀ {k}, signalFrom base.contrib c.infos M k = false → M.contains k = false := by
    intro k hk
    unfold signalFrom at hk
    exact (Bool.or_eq_false_iff.1 hk).1
  unfold ancSimulate at h ⊢
  cases hset : roomSetup ext i g c with
  | error x => rw [hset] at h; cases h
  | ok r =>
    obtain ⟨par, gc⟩ := r
    rw [hset] at h
    dsimp only at h
    cases hp : Coll.path gc "loudspeaker" "error" with
    | error x => rw [hp] at h; cases h
    | ok sp =>
      rw [hp] at h
      dsimp only at h
      cases hq : fxCreate gc.2.arrays bs ub L mu beta norm with
      | error x => rw [hq] at h; cases h
      | ok q =>
        rw [hq] at h
        dsimp only at h
        cases hd : diags gc.2 with
        | error x => rw [hd] at h; cases h
        | ok ds =>
          rw [hd] at h
          dsimp only at h
          obtain ⟨gc', k1, k2, fin', k3, k4⟩ := room_runWith_mute (M := M)
            (cfg := { base with
              arrays := c.infos, arrUpdate := Coll.update (createPath (i.cfg ext par)), arrPath := Coll.path
              proc := some (fxProc q) }) hfilt hc hM ⟨"loudspeaker", hls, fun e => by have := hM' u3; simp [e] at this⟩ hrir hrand hset rfl rfl rfl
            (I := Silent base.srcGet)
            (by
              rintro s n s' v ⟨I, h1, h2⟩ hg
              obtain ⟨h3, h4⟩ := h2 s n s' v h1 hg
              exact ⟨⟨I, h3, h2⟩, h4⟩) hsil
            (fun p hp => by cases hp; exact ⟨fxProc_ignores q u1 u4 u2 u3, fxProc_mutes q u4 u3⟩) (fxPrepare_hide u1 u4) (fxPrepare_mutes u4)
            (Pd := fun d => ∀ k ∈ d.reads, signalFrom base.contrib c.infos M k = false)
            (by rw [hdiag]; exact diagOps_blind _)
            ((hdiags gc.2 (gc.2.withoutSrc M) rfl ds hd).2) h
          rw [k1]
          dsimp only
          have hp' : Coll.path gc' "loudspeaker" "error" = .ok sp := by
            rw [← hp]
            unfold Coll.path
            rw [k2.paths _ _ (hM' u3)]
          rw [hp']
          dsimp only
          rw [fxCreate_nums (as := gc.2.arrays) (by
            intro nm hnm
            simp only [List.mem_cons, List.not_mem_nil, or_false] at hnm
            rcases hnm with rfl | rfl | rfl
            · exact numOfArray_mute k2 (hM' u1)
            · exact numOfArray_mute k2 (hM' u2)
            · exact numOfArray_mute k2 (hM' u3)), hq]
          dsimp only
          rw [(hdiags gc.2 gc'.2 k2.arrays ds hd).1]
          exact ⟨fin', k3, .of k4⟩

/-- C186, FastBlockFxLMS: the same. -/
theorem C186_fast
    (base : SimCfg R (IrMat R) (Fir R) S (G × Coll (K × K × K) (IrMat R)) (FastSt R) (DData R (FastSt R) V) (DOut R V))
    (hfilt : base.filt = firOps R) (hdiag : base.diag = diagOps R (FastSt R) V) (hc : c.Consistent) (hM : ∀ s ∈ M, s ∈ c.srcs)
    (hls : "loudspeaker" ∈ c.srcs) (hsil : ∀ s ∈ M, s ∈ c.frees → Silent base.srcGet (srcs s))
    (hrir : ∀ b g g' ss ms, (ext.rir b g ss ms).2 = (ext.rir b g' ss ms).2)
    (hrand : ∀ s m, s ∉ M → c.types s m ≠ some "random")
    (hused : ∀ k ∈ ["ref", "error", "loudspeaker", "xf"], signalFrom base.contrib c.infos M k = false)
    {diags : Coll (K × K × K) (IrMat R) → Except PyErr (List (Diag (DData R (FastSt R) V)))}
    (hdiags : ∀ c1 c2 : Coll (K × K × K) (IrMat R), c2.arrays = c1.arrays.filter (fun a => !M.contains a.name) → ∀ ds, diags c1 = .ok ds →
      diags c2 = .ok ds ∧ ∀ d ∈ ds, ∀ k ∈ d.data.reads, signalFrom base.contrib c.infos M k = false)
    {fin : SimSt R (Fir R) S (G × Coll (K × K × K) (IrMat R)) (FastSt R) (DData R (FastSt R) V) (DOut R V)}
    (h : realSimulate base ext i g c srcs bs L mu beta f0 diags = .ok fin) :
    ∃ fin', realSimulate base ext i g (c.withoutSrc M) srcs bs L mu beta f0 diags = .ok fin' ∧
      SameButSilent (signalFrom base.contrib c.infos M) M fin fin' := by
  have u1 := hused "ref" (by simp)
  have u2 := hused "error" (by simp)
  have u3 := hused "loudspeaker" (by simp)
  have u4 := hused "xf" (by simp)
  have hM' : ∀ {k}, signalFrom base.contrib c.infos M k = false → M.contains k = false := by
    intro k hk
    unfold signalFrom at hk
    exact (Bool.or_eq_false_iff.1 hk).1
  unfold realSimulate at h ⊢
  cases hset : roomSetup ext i g c with
  | error x => rw [hset] at h; cases h
  | ok r =>
    obtain ⟨par, gc⟩ := r
    rw [hset] at h
    dsimp only at h
    cases hp : Coll.path gc "loudspeaker" "error" with
    | error x => rw [hp] at h; cases h
    | ok sp =>
      rw [hp] at h
      dsimp only at h
      cases hq : fastCreate gc.2.arrays bs L mu beta with
      | error x => rw [hq] at h; cases h
      | ok q =>
        rw [hq] at h
        dsimp only at h
        cases hd : diags gc.2 with
        | error x => rw [hd] at h; cases h
        | ok ds =>
          rw [hd] at h
          dsimp only at h
          obtain ⟨gc', k1, k2, fin', k3, k4⟩ := room_runWith_mute (M := M)
            (cfg := { base with
              arrays := c.infos, arrUpdate := Coll.update (createPath (i.cfg ext par)), arrPath := Coll.path
              proc := some (fastProc q) }) hfilt hc hM ⟨"loudspeaker", hls, fun e => by have := hM' u3; simp [e] at this⟩ hrir hrand hset rfl rfl rfl
            (I := Silent base.srcGet)
            (by
              rintro s n s' v ⟨I, h1, h2⟩ hg
              obtain ⟨h3, h4⟩ := h2 s n s' v h1 hg
              exact ⟨⟨I, h3, h2⟩, h4⟩) hsil
            (fun p hp => by cases hp; exact ⟨fastProc_ignores q u1 u4 u2 u3, fastProc_mutes q u4 u3⟩) (fastPrepare_hide q u1 u4)
            (fastPrepare_mutes q u4)
            (Pd := fun d => ∀ k ∈ d.reads, signalFrom base.contrib c.infos M k = false)
            (by rw [hdiag]; exact diagOps_blind _)
            ((hdiags gc.2 (gc.2.withoutSrc M) rfl ds hd).2) h
          rw [k1]
          dsimp only
          have hp' : Coll.path gc' "loudspeaker" "error" = .ok sp := by
            rw [← hp]
            unfold Coll.path
            rw [k2.paths _ _ (hM' u3)]
          rw [hp']
          dsimp only
          have hq' : fastCreate gc'.2.arrays bs L mu beta = .ok q := by
            rw [← hq]
            refine fxCreate_nums ?_ _ _ _ _ _ _
            intro nm hnm
            simp only [List.mem_cons, List.not_mem_nil, or_false] at hnm
            rcases hnm with rfl | rfl | rfl
            · exact numOfArray_mute k2 (hM' u1)
            · exact numOfArray_mute k2 (hM' u2)
            · exact numOfArray_mute k2 (hM' u3)
          rw [hq']
          dsimp only
          rw [(hdiags gc.2 gc'.2 k2.arrays ds hd).1]
          exact ⟨fin', k3, .of k4⟩

end

/-! ### trajectories that stay -/

section
variable {K R S D O G : Type} [Field K] [LinearOrder K] [Field R] [DecidableEq R]
  {ext : RoomExt K R G} {i : RoomInfo K} {g : G} {c : Coll (K × K × K) (IrMat R)} {srcs : String → S}
  {bs ub L : Nat} {mu beta : R} {norm : FxNorm} {f0 : Fir R}

/-- The same simulation but for the arrays and the filters of pairs that do not exist. -/
structure SameStill {P : Type} (c : Coll (K × K × K) (IrMat R)) (fin fin' : SimSt R (Fir R) S (G × Coll (K × K × K) (IrMat R)) P D O) : Prop where
  sig : fin'.eng.sig = fin.eng.sig
  srcs : fin'.eng.srcs = fin.eng.srcs
  proc : fin'.eng.proc = fin.eng.proc
  idx : fin'.idx = fin.idx
  n : fin'.n = fin.n
  diags : fin'.diags = fin.diags
  log : fin'.log = fin.log
  paths : fin'.eng.arr.2.paths = fin.eng.arr.2.paths
  filts : ∀ p ∈ combosOf c.infos, fin'.eng.filts p.1.name p.2.name = fin.eng.filts p.1.name p.2.name

/-- C187, FxLMS: arrays with a trajectory that stays where it is and arrays without trajectory, with any update frequency, give
the same adaptive noise control. -/
theorem C187_fxlms (base : SimCfg R (IrMat R) (Fir R) S (G × Coll (K × K × K) (IrMat R)) (FxSt R) D O) (hf : base.filt = firOps R)
    (hrir : ∀ b g g' ss ms, (ext.rir b g ss ms).2 = (ext.rir b g' ss ms).2)
    (hc : c.Consistent) (hT : ∀ s m, c.types s m ≠ some "random")
    (hnum : ∀ a ∈ c.arrays, 0 < a.num) (hstay : ∀ a ∈ c.arrays, ∀ q, a.traj = some q → ∀ n, q n = a.pos)
    {freq : Nat} (hfreq : 0 < freq)
    {diags : Coll (K × K × K) (IrMat R) → Except PyErr (List (Diag D))} (hdiags : ∀ c1, diags (c1.still freq) = diags c1)
    {fin : SimSt R (Fir R) S (G × Coll (K × K × K) (IrMat R)) (FxSt R) D O}
    (h : ancSimulate base ext i g c srcs bs ub L mu beta norm f0 diags = .ok fin) :
    ∃ fin', ancSimulate base ext i g (c.still freq) srcs bs ub L mu beta norm f0 diags = .ok fin' ∧ SameStill c fin fin' := by
  unfold ancSimulate at h ⊢
  cases hset : roomSetup ext i g c with
  | error x => rw [hset] at h; cases h
  | ok r =>
    obtain ⟨par, gc⟩ := r
    rw [hset] at h
    dsimp only at h
    cases hp : Coll.path gc "loudspeaker" "error" with
    | error x => rw [hp] at h; cases h
    | ok sp =>
      rw [hp] at h
      dsimp only at h
      cases hq : fxCreate gc.2.arrays bs ub L mu beta norm with
      | error x => rw [hq] at h; cases h
      | ok q =>
        rw [hq] at h
        dsimp only at h
        cases hd : diags gc.2 with
        | error x => rw [hd] at h; cases h
        | ok ds =>
          rw [hd] at h
          dsimp only at h
          obtain ⟨k1, fin', k2, s1, s2, s3, s4, s5, s6, s7, s8, s9⟩ := room_runWith_still
            (cfg := { base with
              arrays := c.infos, arrUpdate := Coll.update (createPath (i.cfg ext par)), arrPath := Coll.path
              proc := some (fxProc q) }) hf hrir hc hT hnum hstay hfreq hset rfl rfl rfl h
          rw [k1]
          dsimp only
          have hp' : Coll.path (gc.1, gc.2.still freq) "loudspeaker" "error" = .ok sp := hp
          rw [hp']
          dsimp only
          rw [fxCreate_nums (fun nm _ => numOfArray_still freq gc.2 nm), hq]
          dsimp only
          rw [hdiags, hd]
          exact ⟨fin', k2, s1, s2, s3, s4, s5, s6, s7, s8, s9⟩

/-- C187, FastBlockFxLMS: the same. -/
theorem C187_fast (base : SimCfg R (IrMat R) (Fir R) S (G × Coll (K × K × K) (IrMat R)) (FastSt R) D O) (hf : base.filt = firOps R)
    (hrir : ∀ b g g' ss ms, (ext.rir b g ss ms).2 = (ext.rir b g' ss ms).2)
    (hc : c.Consistent) (hT : ∀ s m, c.types s m ≠ some "random")
    (hnum : ∀ a ∈ c.arrays, 0 < a.num) (hstay : ∀ a ∈ c.arrays, ∀ q, a.traj = some q → ∀ n, q n = a.pos)
    {freq : Nat} (hfreq : 0 < freq)
    {diags : Coll (K × K × K) (IrMat R) → Except PyErr (List (Diag D))} (hdiags : ∀ c1, diags (c1.still freq) = diags c1)
    {fin : SimSt R (Fir R) S (G × Coll (K × K × K) (IrMat R)) (FastSt R) D O}
    (h : realSimulate base ext i g c srcs bs L mu beta f0 diags = .ok fin) :
    ∃ fin', realSimulate base ext i g (c.still freq) srcs bs L mu beta f0 diags = .ok fin' ∧ SameStill c fin fin' := by
  unfold realSimulate at h ⊢
  cases hset : roomSetup ext i g c with
  | error x => rw [hset] at h; cases h
  | ok r =>
    obtain ⟨par, gc⟩ := r
    rw [hset] at h
    dsimp only at h
    cases hp : Coll.path gc "loudspeaker" "error" with
    | error x => rw [hp] at h; cases h
    | ok sp =>
      rw [hp] at h
      dsimp only at h
      cases hq : fastCreate gc.2.arrays bs L mu beta with
      | error x => rw [hq] at h; cases h
      | ok q =>
        rw [hq] at h
        dsimp only at h
        cases hd : diags gc.2 with
        | error x => rw [hd] at h; cases h
        | ok ds =>
          rw [hd] at h
          dsimp only at h
          obtain ⟨k1, fin', k2, s1, s2, s3, s4, s5, s6, s7, s8, s9⟩ := room_runWith_still
            (cfg := { base with
              arrays := c.infos, arrUpdate := Coll.update (createPath (i.cfg ext par)), arrPath := Coll.path
              proc := some (fastProc q) }) hf hrir hc hT hnum hstay hfreq hset rfl rfl rfl h
          rw [k1]
          dsimp only
          have hp' : Coll.path (gc.1, gc.2.still freq) "loudspeaker" "error" = .ok sp := hp
          rw [hp']
          dsimp only
          have hq' : fastCreate (gc.2.still freq).arrays bs L mu beta = .ok q := by
            rw [← hq]
            exact fxCreate_nums (fun nm _ => numOfArray_still freq gc.2 nm) _ _ _ _ _ _
          rw [hq']
          dsimp only
          rw [hdiags, hd]
          exact ⟨fin', k2, s1, s2, s3, s4, s5, s6, s7, s8, s9⟩

end

/-! ### examples -/

/-- The shipped script with measured responses, the arrays added the other way round. -/
example (g : Nat) : ∃ fin fin', realSimulate (realBase 10000) boxExt boxInfo g
    (planned 2 (realArrays [(0, 1, 3), (0, 2, 3)] [(0, 0, 3)] (3, 1, 3) [(1, 1, 3), (1, 2, 3), (1, 0, 3)] (3, 1, 3)) (realOps (realIr 2) (realIr 1)) "ism")
    (fun _ => 0) 1 512 (1 / 20) (1 / 1000000) demoFilt
    (fun c => ancDiagnostics ⟨10000, 2000, 512⟩ c.arrays fun _ => .ok 0) = .ok fin ∧
    realSimulate (realBase 10000) boxExt boxInfo g
    (planned 2 (realArrays [(0, 1, 3), (0, 2, 3)] [(0, 0, 3)] (3, 1, 3) [(1, 1, 3), (1, 2, 3), (1, 0, 3)] (3, 1, 3)).reverse (realOps (realIr 2) (realIr 1)) "ism")
    (fun _ => 0) 1 512 (1 / 20) (1 / 1000000) demoFilt
    (fun c => ancDiagnostics ⟨10000, 2000, 512⟩ c.arrays fun _ => .ok 0) = .ok fin' ∧ SameOrdered fin fin' := by
  have hx : IsStream (realBase 10000).srcGet ((fun _ => 0 : String → Nat) "noise") 1 fun _ t => ((0 + t + 1 : Nat) : ℚ) := open_stream 0
  exact C185_shipped (hm := realIr 2) (he := realIr 1) (pm := [((0 : ℚ), (1 : ℚ), (3 : ℚ)), (0, 2, 3)]) (pe := [(0, 0, 3)])
    (pl := [(1, 1, 3), (1, 2, 3), (1, 0, 3)]) (pr := (3, 1, 3)) (pn := (3, 1, 3)) (freq := 2) (i := boxInfo) (ext := boxExt)
    ⟨rfl, rfl⟩ ⟨rfl, rfl⟩ (by simp) (by simp) (by simp) (by omega) rfl plan_demo.reverberation box_lawful (fun _ _ _ _ _ => rfl)
    (realBase 10000) rfl rfl rfl rfl
    ⟨by decide, by decide⟩ rfl (srcs := fun _ => 0) hx (mu := 1 / 20) (beta := 1 / 1000000)
    (regular_pos (by norm_num)) (info := ⟨10000, 2000, 512⟩) rfl (by decide) (by decide) 0 demoFilt g (List.reverse_perm _).symm

/-- The arrays of the example in another order. -/
def turnedColl : Coll (ℚ × ℚ × ℚ) (IrMat ℚ) :=
  planned 2 (exampleArrays [(0, 1, 3)] [(3, 1, 3)] [(1, 1, 3)] [(3, 1, 3)]).reverse exampleTypes "ism"

/-- FxLMS with the arrays in two orders. -/
example : ∃ fin fin', ancSimulate { ancBase with B := 6, C := 4, tot := 5 } boxExt boxInfo 0
      (planned 2 (exampleArrays [(0, 1, 3)] [(3, 1, 3)] [(1, 1, 3)] [(3, 1, 3)]) exampleTypes "ism") (fun _ => 0) 1 2 2 (1 / 100) (1 / 1000) .none demoFilt
      (fun c => ancDiagnostics ⟨5, 2, 4⟩ c.arrays fun _ => .ok 0) = .ok fin ∧
    ancSimulate { ancBase with B := 6, C := 4, tot := 5 } boxExt boxInfo 0 turnedColl (fun _ => 0) 1 2 2 (1 / 100) (1 / 1000) .none demoFilt
      (fun c => ancDiagnostics ⟨5, 2, 4⟩ c.arrays fun _ => .ok 0) = .ok fin' ∧ SameOrdered fin fin' ∧ fin.log ≠ [] := by
  have hx : (match ancSimulate { ancBase with B := 6, C := 4, tot := 5 } boxExt boxInfo 0
      (planned 2 (exampleArrays [(0, 1, 3)] [(3, 1, 3)] [(1, 1, 3)] [(3, 1, 3)]) exampleTypes "ism") (fun _ => 0) 1 2 2 (1 / 100) (1 / 1000) .none demoFilt
      (fun c => ancDiagnostics ⟨5, 2, 4⟩ c.arrays fun _ => .ok 0) with
      | .ok fin => !fin.log.isEmpty
      | _ => false) = true := by decide +kernel
  split at hx
  · rename_i fin h1
    obtain ⟨a1, a2, a3, a4, a5, a6, a7⟩ := C185_setup (R := ℚ) 2
      (List.reverse_perm (exampleArrays [((0 : ℚ), (1 : ℚ), (3 : ℚ))] [(3, 1, 3)] [(1, 1, 3)] [(3, 1, 3)])).symm
      (by decide +kernel) (by decide +kernel) exampleTypes "ism" rfl rfl
    obtain ⟨fin', h2, h3⟩ := C185_fxlms { ancBase with B := 6, C := 4, tot := 5 } a1 a2
      (by rw [a3, a4]; exact (List.reverse_perm _).symm) a5 a6 a7 (fun _ _ _ _ _ => rfl)
      (by
        intro s m h
        have := planned_types h
        simp [exampleTypes] at this) (fun c1 c2 => ancDiagnostics_perm _ _ c1 c2) h1
    exact ⟨fin, fin', h1, h2, h3, fun e => by rw [e] at hx; simp at hx⟩
  · cases hx

/-- The arrays of the example with one more source, which is silent. -/
def silentColl : Coll (ℚ × ℚ × ℚ) (IrMat ℚ) :=
  planned 2 (stillArr "second" .ctrl [(1, 1, 3)] :: exampleArrays [(0, 1, 3)] [(3, 1, 3)] [(1, 1, 3)] [(3, 1, 3)]) exampleTypes "ism"

/-- FxLMS with one more loudspeaker, which nobody drives, and without it. -/
example : ∃ fin fin', ancSimulate { ancBase with B := 6, C := 4, tot := 5 } boxExt boxInfo 0 silentColl (fun _ => 0) 1 2 2 (1 / 100) (1 / 1000) .none demoFilt
      (fun _ => .ok []) = .ok fin ∧
    ancSimulate { ancBase with B := 6, C := 4, tot := 5 } boxExt boxInfo 0 (silentColl.withoutSrc ["second"]) (fun _ => 0) 1 2 2 (1 / 100) (1 / 1000) .none demoFilt
      (fun _ => .ok []) = .ok fin' ∧
    fin'.eng.proc = fin.eng.proc ∧ fin'.eng.sig "error" = fin.eng.sig "error" ∧ fin.eng.sig "second" ≠ none ∧ fin'.eng.sig "second" = none := by
  have hx : (match ancSimulate { ancBase with B := 6, C := 4, tot := 5 } boxExt boxInfo 0 silentColl (fun _ => 0) 1 2 2 (1 / 100) (1 / 1000) .none demoFilt
      (fun _ => .ok []), ancSimulate { ancBase with B := 6, C := 4, tot := 5 } boxExt boxInfo 0 (silentColl.withoutSrc ["second"]) (fun _ => 0) 1 2 2 (1 / 100) (1 / 1000) .none demoFilt
      (fun _ => .ok []) with
      | .ok fin, .ok fin' => (fin.eng.sig "second").isSome && (fin'.eng.sig "second").isNone
      | _, _ => false) = true := by decide +kernel
  have hk : (∀ a ∈ silentColl.arrays, a.kind ≠ none) ∧ (silentColl.arrays.map Arr.name).Nodup := by decide +kernel
  split at hx
  · rename_i fin fin1 h1 h2
    obtain ⟨fin', h3, h4⟩ := C186_fxlms (M := ["second"]) { ancBase with B := 6, C := 4, tot := 5 } rfl rfl
      ⟨hk.2, hk.1, by decide +kernel, by decide +kernel, by decide +kernel⟩ (by decide +kernel) (by decide +kernel)
      (by
        intro s hs hf
        cases List.mem_singleton.1 hs
        exact absurd hf (by decide +kernel)) (fun _ _ _ _ _ => rfl)
      (by
        intro s m _ h
        have := planned_types h
        simp [exampleTypes] at this) (by decide +kernel)
      (by
        intro c1 c2 _ ds hds
        cases hds
        exact ⟨rfl, by simp⟩) h1
    rw [h2] at h3
    cases h3
    rw [Bool.and_eq_true] at hx
    exact ⟨fin, fin1, h1, h2, h4.proc, h4.sig _ (by decide +kernel), fun e => by rw [e] at hx; simp at hx, by simpa using hx.2⟩
  · cases hx

/-- FastBlockFxLMS with one more loudspeaker, which nobody drives, and without it. -/
example : ∃ fin fin', realSimulate { realBase 5 with B := 6, C := 4 } boxExt boxInfo 0 silentColl (fun _ => 0) 1 2 (1 / 100) (1 / 1000) demoFilt
      (fun _ => .ok []) = .ok fin ∧
    realSimulate { realBase 5 with B := 6, C := 4 } boxExt boxInfo 0 (silentColl.withoutSrc ["second"]) (fun _ => 0) 1 2 (1 / 100) (1 / 1000) demoFilt
      (fun _ => .ok []) = .ok fin' ∧
    fin'.eng.proc = fin.eng.proc ∧ fin'.eng.sig "error" = fin.eng.sig "error" ∧ fin.eng.sig "second" ≠ none ∧ fin'.eng.sig "second" = none := by
  have hx : (match realSimulate { realBase 5 with B := 6, C := 4 } boxExt boxInfo 0 silentColl (fun _ => 0) 1 2 (1 / 100) (1 / 1000) demoFilt
      (fun _ => .ok []), realSimulate { realBase 5 with B := 6, C := 4 } boxExt boxInfo 0 (silentColl.withoutSrc ["second"]) (fun _ => 0) 1 2 (1 / 100) (1 / 1000) demoFilt
      (fun _ => .ok []) with
      | .ok fin, .ok fin' => (fin.eng.sig "second").isSome && (fin'.eng.sig "second").isNone
      | _, _ => false) = true := by decide +kernel
  have hk : (∀ a ∈ silentColl.arrays, a.kind ≠ none) ∧ (silentColl.arrays.map Arr.name).Nodup := by decide +kernel
  split at hx
  · rename_i fin fin1 h1 h2
    obtain ⟨fin', h3, h4⟩ := C186_fast (M := ["second"]) { realBase 5 with B := 6, C := 4 } rfl rfl
      ⟨hk.2, hk.1, by decide +kernel, by decide +kernel, by decide +kernel⟩ (by decide +kernel) (by decide +kernel)
      (by
        intro s hs hf
        cases List.mem_singleton.1 hs
        exact absurd hf (by decide +kernel)) (fun _ _ _ _ _ => rfl)
      (by
        intro s m _ h
        have := planned_types h
        simp [exampleTypes] at this) (by decide +kernel)
      (by
        intro c1 c2 _ ds hds
        cases hds
        exact ⟨rfl, by simp⟩) h1
    rw [h2] at h3
    cases h3
    rw [Bool.and_eq_true] at hx
    exact ⟨fin, fin1, h1, h2, h4.proc, h4.sig _ (by decide +kernel), fun e => by rw [e] at hx; simp at hx, by simpa using hx.2⟩
  · cases hx

/-- The arrays of the example, the source of noise with a trajectory that stays. -/
def stayArrays : List (Arr (ℚ × ℚ × ℚ)) :=
  [stillArr "error" .mic [(0, 1, 3)], stillArr "ref" .mic [(3, 1, 3)], stillArr "loudspeaker" .ctrl [(1, 1, 3)],
    { stillArr "noise" .free [(3, 1, 3)] with traj := some fun _ => [(3, 1, 3)] }]

def stayColl : Coll (ℚ × ℚ × ℚ) (IrMat ℚ) := planned 2 stayArrays exampleTypes "ism"

theorem stayColl_ok : stayColl.Consistent ∧ (∀ s m, stayColl.types s m ≠ some "random") ∧ (∀ a ∈ stayColl.arrays, 0 < a.num) ∧
    ∀ a ∈ stayColl.arrays, ∀ q, a.traj = some q → ∀ n, q n = a.pos := by
  obtain ⟨a1, -, a3, -⟩ := C185_setup (R := ℚ) 2 (List.Perm.refl stayArrays) (by decide +kernel) (by decide +kernel) exampleTypes "ism"
    (rfl : stayColl = _) rfl
  refine ⟨a1, ?_, by rw [a3]; decide +kernel, ?_⟩
  · intro s m h
    have := planned_types h
    simp [exampleTypes] at this
  · rw [a3]
    intro a ha q hq n
    simp only [stayArrays, List.mem_cons, List.not_mem_nil, or_false] at ha
    rcases ha with rfl | rfl | rfl | rfl <;> cases hq
    rfl

/-- FxLMS with that trajectory and without it. -/
example : ∃ fin fin', ancSimulate { ancBase with B := 6, C := 4, tot := 5 } boxExt boxInfo 0 stayColl (fun _ => 0) 1 2 2 (1 / 100) (1 / 1000) .none demoFilt
      (fun c => ancDiagnostics ⟨5, 2, 4⟩ c.arrays fun _ => .ok 0) = .ok fin ∧
    ancSimulate { ancBase with B := 6, C := 4, tot := 5 } boxExt boxInfo 0 (stayColl.still 7) (fun _ => 0) 1 2 2 (1 / 100) (1 / 1000) .none demoFilt
      (fun c => ancDiagnostics ⟨5, 2, 4⟩ c.arrays fun _ => .ok 0) = .ok fin' ∧ SameStill stayColl fin fin' ∧ fin.log ≠ [] := by
  have hx : (match ancSimulate { ancBase with B := 6, C := 4, tot := 5 } boxExt boxInfo 0 stayColl (fun _ => 0) 1 2 2 (1 / 100) (1 / 1000) .none demoFilt
      (fun c => ancDiagnostics ⟨5, 2, 4⟩ c.arrays fun _ => .ok 0) with
      | .ok fin => !fin.log.isEmpty
      | _ => false) = true := by decide +kernel
  obtain ⟨c1, c2, c3, c4⟩ := stayColl_ok
  split at hx
  · rename_i fin h1
    obtain ⟨fin', h2, h3⟩ := C187_fxlms { ancBase with B := 6, C := 4, tot := 5 } rfl (fun _ _ _ _ _ => rfl) c1 c2 c3 c4 (freq := 7) (by decide)
      (fun c => ancDiagnostics_same (fun nm _ => numOfArray_still 7 c nm) (by simp [Coll.still, List.any_map, Function.comp_def, Arr.still]) _ _) h1
    exact ⟨fin, fin', h1, h2, h3, fun e => by rw [e] at hx; simp at hx⟩
  · cases hx

/-- FastBlockFxLMS with that trajectory and without it. -/
example : ∃ fin fin', realSimulate { realBase 5 with B := 6, C := 4 } boxExt boxInfo 0 stayColl (fun _ => 0) 1 2 (1 / 100) (1 / 1000) demoFilt
      (fun c => ancDiagnostics ⟨5, 2, 4⟩ c.arrays fun _ => .ok 0) = .ok fin ∧
    realSimulate { realBase 5 with B := 6, C := 4 } boxExt boxInfo 0 (stayColl.still 7) (fun _ => 0) 1 2 (1 / 100) (1 / 1000) demoFilt
      (fun c => ancDiagnostics ⟨5, 2, 4⟩ c.arrays fun _ => .ok 0) = .ok fin' ∧ SameStill stayColl fin fin' ∧ fin.log ≠ [] := by
  have hx : (match realSimulate { realBase 5 with B := 6, C := 4 } boxExt boxInfo 0 stayColl (fun _ => 0) 1 2 (1 / 100) (1 / 1000) demoFilt
      (fun c => ancDiagnostics ⟨5, 2, 4⟩ c.arrays fun _ => .ok 0) with
      | .ok fin => !fin.log.isEmpty
      | _ => false) = true := by decide +kernel
  obtain ⟨c1, c2, c3, c4⟩ := stayColl_ok
  split at hx
  · rename_i fin h1
    obtain ⟨fin', h2, h3⟩ := C187_fast { realBase 5 with B := 6, C := 4 } rfl (fun _ _ _ _ _ => rfl) c1 c2 c3 c4 (freq := 7) (by decide)
      (fun c => ancDiagnostics_same (fun nm _ => numOfArray_still 7 c nm) (by simp [Coll.still, List.any_map, Function.comp_def, Arr.still]) _ _) h1
    exact ⟨fin, fin', h1, h2, h3, fun e => by rw [e] at hx; simp at hx⟩
  · cases hx

end Verif
