/-
Diagnostics in simulations with a processor that also writes into the past of its own
signals: those that do not read these signals behave as always.
-/
import Verif.Lemmas.TapeProc
import Verif.Lemmas.Recording
namespace Verif

section
variable {R IR F S A P V : Type} [Field R] [DecidableEq R]

theorem DData.save_reads {d d' : DData R P V} {pr : Option P} {sig : Sigs R} {c g : Int × Int}
    (h : d.save pr sig c g = .ok d') : d'.reads = d.reads := by
  cases d <;> unfold DData.save at h <;> (try dsimp only at h) <;> (repeat' split at h) <;> cases h <;> rfl

theorem DData.save_congr {d : DData R P V} {S S' : Sigs R} (h : ∀ name ∈ d.reads, S name = S' name) (pr : Option P)
    (c g : Int × Int) : d.save pr S c g = d.save pr S' c g := by
  have hs : ∀ name ∈ d.reads, ∀ sel i j, sigSelect S name sel i j = sigSelect S' name sel i j := by
    intro name hn sel i j
    unfold sigSelect
    rw [h name hn]
  cases d with
  | recSignal name chan signal => unfold DData.save; simp only [hs name (by simp [DData.reads])]
  | recState get values times i => rfl
  | power name chan pw => unfold DData.save; simp only [hs name (by simp [DData.reads])]
  | ratio n nc dn dc q vals =>
    unfold DData.save; simp only [hs n (by simp [DData.reads]), hs dn (by simp [DData.reads])]
  | instant get v => rfl
  | sfPower name q pw => unfold DData.save; simp only [hs name (by simp [DData.reads])]
  | spectrum name chan w signal k => unfold DData.save; simp only [hs name (by simp [DData.reads])]
  | summary name func q mean => unfold DData.save; simp only [hs name (by simp [DData.reads])]

theorem saveOne_congr {D O : Type} {ops : DiagOps R P D O} {pr : Option P} {S S' : Sigs R} {idx glob : Int} {last : Bool}
    {d : Diag D} (h : ∀ c g, ops.save d.data pr S c g = ops.save d.data pr S' c g) :
    saveOne ops pr S idx glob last d = saveOne ops pr S' idx glob last d := by
  unfold saveOne
  simp only [h]

theorem saveOne_data {D O : Type} {ops : DiagOps R P D O} {pr : Option P} {S : Sigs R} {idx glob : Int} {last : Bool}
    {d d' : Diag D} (h : saveOne ops pr S idx glob last d = .ok d') :
    d'.data = d.data ∨ ∃ c g, ops.save d.data pr S c g = .ok d'.data := by
  have aux : ∀ c g (y : Except PyErr IvCounter), (match ops.save d.data pr S c g with
      | .error x => .error x
      | .ok data =>
        match y with
        | .error x => .error x
        | .ok c => .ok { d with data := data, saveAt := c } : Except PyErr (Diag D)) = .ok d' →
      d'.data = d.data ∨ ∃ c g, ops.save d.data pr S c g = .ok d'.data := by
    intro c g y hxy
    split at hxy
    · cases hxy
    · rename_i data hd
      cases y with
      | error e => cases hxy
      | ok c' => cases hxy; exact .inr ⟨c, g, hd⟩
  unfold saveOne at h
  split at h
  · split at h
    · exact aux _ _ _ h
    · split at h
      · exact aux _ _ _ h
      · cases h; exact .inl rfl
  · split at h
    · exact aux _ _ _ h
    · cases h; exact .inl rfl
  · cases h; exact .inl rfl

theorem saveOne_reads {pr : Option P} {S : Sigs R} {idx glob : Int} {last : Bool} {d d' : Diag (DData R P V)}
    (h : saveOne (diagOps R P V) pr S idx glob last d = .ok d') : d'.data.reads = d.data.reads := by
  rcases saveOne_data h with h | ⟨c, g, h⟩
  · rw [h]
  · exact DData.save_reads h

/-- The tape with only the signals `ok`. -/
def Tape.only (ok : String → Prop) [DecidablePred ok] (T : Tape R) : Tape R :=
  fun k c t => if ok k then T k c t else 0

theorem cut_only {ok : String → Prop} [DecidablePred ok] {dims : String → Option Nat} {T : Tape R} {off : Int} {L : Nat}
    {name : String} (h : ok name) : cut dims T off L name = cut dims (T.only ok) off L name := by
  unfold cut Tape.only
  simp only [if_pos h]

variable {cfg : SimCfg R IR F S A P (DData R P V) (DOut R V)}

/-- The processor after step `n`. -/
def SimCfg.gProcAfter (cfg : SimCfg R IR F S A P (DData R P V) (DOut R V)) {p : Proc R P} (tp : TapeProc cfg.dims p)
    (e0 : Eng (Tape R) F S A P) (n : Nat) : Option P :=
  match cfg.gSteps tp (n + 1) e0 with
  | .ok e => some e.proc
  | .error _ => none

/-- The diagnostics after `k` steps. -/
def GDiags (cfg : SimCfg R IR F S A P (DData R P V) (DOut R V)) (ok : String → Prop) [DecidablePred ok] (T : Tape R)
    (pf : Nat → Option P) (ds0 : List (Diag (DData R P V))) (k : Nat) (r : Int)
    (st : SimSt R F S A P (DData R P V) (DOut R V)) : Prop :=
  List.Forall₂ (fun d0 d => d.name = d0.name ∧ d.data.reads = d0.data.reads ∧
    (d0.Fresh → (∀ name ∈ d0.data.reads, ok name) → ∃ ps xs,
      DInv cfg (T.only ok) pf k r st.log d0 d ps xs ∧
        (cfg.plotNone = false → 0 < k → d.ready = false))) ds0 st.diags

theorem GDiags.start {ok : String → Prop} [DecidablePred ok] {T : Tape R} {pf : Nat → Option P}
    {ds0 : List (Diag (DData R P V))} {st : SimSt R F S A P (DData R P V) (DOut R V)} (hd : st.diags = ds0)
    (hlog : st.log = []) : GDiags cfg ok T pf ds0 0 0 st := by
  unfold GDiags
  rw [hd, List.forall₂_same]
  intro d _
  refine ⟨rfl, rfl, ?_⟩
  rintro ⟨ivs, h1, h2⟩ _
  refine ⟨[], [], ⟨rfl, ?_, rfl, rfl, by rw [hlog]; rfl, by rw [hlog]; simp [evOf], ?_⟩, by simp⟩
  · rw [h1, IvCounter.left_init]
    exact IvInv.start h2
  · intro _ _ x _
    show x ≤ 0 ∨ 0 < x
    omega

theorem GDiags.step {ok : String → Prop} [DecidablePred ok] {p : Proc R P} {tp : TapeProc cfg.dims p}
    {e0 te : Eng (Tape R) F S A P} {k : Nat} {st st' : SimSt R F S A P (DData R P V) (DOut R V)} {off r : Int}
    {ds0 : List (Diag (DData R P V))} (hsz : GSizes cfg tp) (hdiag : cfg.diag = diagOps R P V)
    (hnd : (ds0.map Diag.name).Nodup) (hok : ∀ name, ok name → tp.Past name)
    (h : GInv tp e0 k st te off r) (hd : GDiags cfg ok te.sig (cfg.gProcAfter tp e0) ds0 k r st)
    (hs : cfg.step st = .ok st') :
    ∃ te' off' r', GInv tp e0 (k + 1) st' te' off' r' ∧
      GDiags cfg ok te'.sig (cfg.gProcAfter tp e0) ds0 (k + 1) r' st' := by
  obtain ⟨te', off', r', hI, hr'⟩ := h.step hsz hs
  refine ⟨te', off', r', hI, ?_⟩
  have hm := hsz.mbs
  have hbl := hsz.block
  have hl : cfg.diag.Local cfg.dims := by rw [hdiag]; exact diagOps_local _
  have htape := hI.tape
  simp only [SimCfg.gSteps, h.tape] at htape
  unfold SimCfg.step at hs
  have heng : cfg.engine st.n st.idx st.eng = .ok (conc cfg.dims off (cfg.B + cfg.C) te') := by
    cases he : cfg.engine st.n st.idx st.eng with
    | error x => rw [he] at hs; cases hs
    | ok e =>
      obtain ⟨te1, g1, rfl⟩ := h.engine_ok hsz he
      rw [g1] at htape
      cases htape
      rfl
  rw [heng] at hs
  simp only at hs
  have hpf : (if cfg.proc.isSome then some (conc cfg.dims off (cfg.B + cfg.C) te').proc else none) =
      cfg.gProcAfter tp e0 k := by
    unfold SimCfg.gProcAfter; rw [hI.tape, hsz.proc]; rfl
  split at hs
  · cases hs
  · rename_i ds hds
    split at hs
    · cases hs
    · rename_i ds' log' hdisp
      simp only [Except.ok.injEq] at hs
      rw [hpf, h.n] at hds
      have hlt := h.pos.idx_lt (by omega) hsz.chunk
      have hsave := mapM_ok_forall₂ (f := saveOne cfg.diag (cfg.gProcAfter tp e0 k)
        (cut cfg.dims te'.sig off (cfg.B + cfg.C)) st.idx k (cfg.lastBlock st.idx)) hds
      have hF1 : List.Forall₂ (fun d0 d => d.name = d0.name ∧ d.data.reads = d0.data.reads ∧
          (d0.Fresh → (∀ name ∈ d0.data.reads, ok name) → ∃ ps xs,
          DInv cfg (te'.sig.only ok) (cfg.gProcAfter tp e0) (k + 1)
            (if cfg.lastBlock st.idx then (k : Int) else r) st.log d0 d ps xs)) ds0 ds := by
        refine forall₂_comp ?_ hd hsave
        rintro d0 d d1 ⟨hname, hreads, hD⟩ hd1
        refine ⟨(saveOne_name hd1).trans hname, ?_, fun hfr hrd => ?_⟩
        · have := hd1
          rw [hdiag] at this
          exact (saveOne_reads this).trans hreads
        obtain ⟨ps, xs, hD, hrdy⟩ := hD hfr hrd
        rw [saveOne_congr (S' := cut cfg.dims (te'.sig.only ok) off (cfg.B + cfg.C)) (by
          intro c g
          rw [hdiag]
          refine DData.save_congr (fun name hn => cut_only ?_) _ _ _
          rw [hreads] at hn
          exact hrd name hn)] at hd1
        obtain ⟨ps', _, hD'⟩ := hD.save cfg (off := off) (idx := st.idx) (L := cfg.B + cfg.C)
          (last := cfg.lastBlock st.idx) (T' := te'.sig.only ok) hl
          (fun nm c t ht => by
            unfold Tape.only
            split
            · rename_i hnm
              exact gEngine_past htape (hok nm hnm) c t ht
            · rfl) h.pos.rk h.pos.sync h.pos.back
          (by push_cast; omega) hrdy hd1
        exact ⟨ps', xs, hD'⟩
      have hnames : ds.map Diag.name = ds0.map Diag.name :=
        forall₂_map_name hF1 (fun _ _ hD => hD.1)
      obtain ⟨hready, evs, hlog, _, hdispF, _⟩ :=
        dispatch_spec cfg.diag (by rw [hnames]; exact hnd) hdisp
      have hF2 : List.Forall₂ (fun d0 d => d.name = d0.name ∧ d.data.reads = d0.data.reads ∧
          (d0.Fresh → (∀ name ∈ d0.data.reads, ok name) → ∃ ps xs,
          DInv cfg (te'.sig.only ok) (cfg.gProcAfter tp e0) (k + 1)
            (if cfg.lastBlock st.idx then (k : Int) else r) log' d0 d ps xs)) ds0 ds' := by
        refine forall₂_comp ?_ hF1 hdispF
        rintro d0 d d1 ⟨hname, hreads, hD⟩ hd1
        refine ⟨hd1.1.trans hname, by rw [hd1.2.2.1]; exact hreads, fun hfr hrd => ?_⟩
        obtain ⟨ps, xs, hD⟩ := hD hfr hrd
        obtain ⟨xs', hD'⟩ := hD.disp cfg hd1
        rw [← hlog] at hD'
        exact ⟨ps, _, hD'⟩
      have hst : st'.diags = ds' ∧ st'.log = log' := by rw [← hs]; exact ⟨rfl, rfl⟩
      unfold GDiags
      rw [hst.1, hst.2, hr']
      refine forall₂_imp_mem hF2 ?_
      rintro a b _ hb ⟨hname, hreads, hD⟩
      refine ⟨hname, hreads, fun hfr hrd => ?_⟩
      obtain ⟨ps, xs, hD⟩ := hD hfr hrd
      exact ⟨ps, xs, by push_cast; exact hD, fun hp _ => hready hp b hb⟩

theorem GDiags.steps {ok : String → Prop} [DecidablePred ok] {p : Proc R P} {tp : TapeProc cfg.dims p}
    {e0 : Eng (Tape R) F S A P} {st0 : SimSt R F S A P (DData R P V) (DOut R V)}
    {ds0 : List (Diag (DData R P V))} (hsz : GSizes cfg tp) (hdiag : cfg.diag = diagOps R P V)
    (hnd : (ds0.map Diag.name).Nodup) (hok : ∀ name, ok name → tp.Past name) {off : Int}
    (h : GInv tp e0 0 st0 e0 off 0) (hd : GDiags cfg ok e0.sig (cfg.gProcAfter tp e0) ds0 0 0 st0) :
    ∀ k {st}, cfg.steps k st0 = .ok st → ∃ te off r, GInv tp e0 k st te off r ∧
      GDiags cfg ok te.sig (cfg.gProcAfter tp e0) ds0 k r st
  | 0, st, hs => by cases hs; exact ⟨_, _, _, h, hd⟩
  | k + 1, st, hs => by
    simp only [SimCfg.steps] at hs
    split at hs
    · cases hs
    · rename_i st1 hs1
      obtain ⟨te, off, r, h1, h2⟩ := GDiags.steps hsz hdiag hnd hok h hd k hs1
      exact GDiags.step hsz hdiag hnd hok h1 h2 hs

/-- The whole run. -/
theorem gDiagRun {ok : String → Prop} [DecidablePred ok] {p : Proc R P} {tp : TapeProc cfg.dims p}
    {e0 : Eng (Tape R) F S A P} {st0 st1 fin : SimSt R F S A P (DData R P V) (DOut R V)}
    {ds0 : List (Diag (DData R P V))} (hsz : GSizes cfg tp) (hdiag : cfg.diag = diagOps R P V)
    (hnd : (ds0.map Diag.name).Nodup) (hok : ∀ name, ok name → tp.Past name)
    (h : GInv tp e0 0 st0 e0 (-(cfg.B : Int)) 0) (hds : st0.diags = ds0) (hlog0 : st0.log = [])
    (hk : cfg.steps (cfg.tot + cfg.mbs) st0 = .ok st1) {ds : List (Diag (DData R P V))}
    {log : List (Event (DOut R V))} (hdisp : dispatch cfg.diag cfg.plotNone st1.diags st1.log = .ok (ds, log))
    (hfin : fin = { st1 with diags := ds, log := log }) :
    ∃ te, cfg.gSteps tp (cfg.tot + cfg.mbs) e0 = .ok te ∧
      DiagRun cfg ds0 st0 fin ok (te.sig.only ok) (cfg.gProcAfter tp e0) := by
  obtain ⟨te, off, r, hI, hD⟩ := GDiags.steps hsz hdiag hnd hok h (GDiags.start hds hlog0) _ hk
  refine ⟨te, hI.tape, hdiag, ?_, ?_, ?_, ?_⟩
  · have := hsz.mbs; have := hsz.block; omega
  · intro name hn t ht c v
    rw [gProduced_iff hsz h hk hI.tape ht (hok name hn)]
    unfold Tape.only
    simp only [if_pos hn]
  · intro n hn p' hpf
    obtain ⟨m, hm⟩ := Nat.exists_eq_add_of_le hn
    rw [hm] at hk
    obtain ⟨s, hs⟩ := steps_prefix cfg m hk
    obtain ⟨te', off', r', hI', _⟩ := GDiags.steps hsz hdiag hnd hok h (GDiags.start hds hlog0) _ hs
    refine ⟨by rw [hsz.proc]; rfl, s, hs, ?_⟩
    unfold SimCfg.gProcAfter at hpf
    rw [show n + 1 = n.succ from rfl, hI'.tape] at hpf
    rw [hI'.eng]
    exact Option.some.inj hpf
  · intro d0 hd0 hrd hfr
    have hnames : st1.diags.map Diag.name = ds0.map Diag.name := forall₂_map_name hD (fun _ _ hD => hD.1)
    obtain ⟨hready, evs, hlog, _, hdispF, _⟩ := dispatch_spec cfg.diag (by rw [hnames]; exact hnd) hdisp
    have h2 : List.Forall₂ (fun d0 d => d.name = d0.name ∧ (d0.Fresh → (∀ name ∈ d0.data.reads, ok name) → ∃ ps xs,
        DInv cfg (te.sig.only ok) (cfg.gProcAfter tp e0) ((cfg.tot + cfg.mbs : Nat) : Int) r log d0 d ps xs))
        ds0 ds := by
      refine forall₂_comp ?_ hD hdispF
      rintro d0 d d1 ⟨hname, _, hD⟩ hd
      refine ⟨hd.1.trans hname, fun hfr hrd => ?_⟩
      obtain ⟨ps, xs, hD, _⟩ := hD hfr hrd
      obtain ⟨xs', hD'⟩ := hD.disp cfg hd
      rw [← hlog] at hD'
      exact ⟨ps, _, hD'⟩
    obtain ⟨d, hd, hname, hD⟩ := forall₂_mem_left h2 hd0
    obtain ⟨ps, xs, hI'⟩ := hD hfr hrd
    subst hfin
    exact ⟨d, hd, hname, ps, xs, r, hI', fun hp => hready hp d hd⟩

end
end Verif
