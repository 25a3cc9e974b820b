/-
C168: the signals of the active noise control example belong together.
-/
import Verif.Props.Anc
namespace Verif

section
variable {K R G S V : Type} [Field K] [LinearOrder K] [Field R] [DecidableEq R]
  {ext : RoomExt K R G} {i : RoomInfo K} {freq : Nat} {as : List (Arr (K × K × K))} {os : List (PathOp R)} {t : String}

omit [Field K] [LinearOrder K] [DecidableEq R] in
theorem sum_srcs_two {l : List ArrInfo} (hnd : l.Nodup) {a b : ArrInfo} (ha : a ∈ l) (hb : b ∈ l) (hab : a ≠ b)
    (honly : ∀ x ∈ l, x = a ∨ x = b) (f : ArrInfo → R) : (l.map f).sum = f a + f b := by
  have hp : l.Perm [a, b] := by
    refine (List.perm_ext_iff_of_nodup hnd (by simp [hab])).2 fun x => ?_
    simp only [List.mem_cons, List.not_mem_nil, or_false]
    exact ⟨honly x, by rintro (rfl | rfl) <;> assumption⟩
  rw [(hp.map f).sum_eq]
  simp

/-- C168. A microphone array that stands still, one noise source and the loudspeakers of the
processor, standing still as well: the recorded microphone signal is the sum of the recorded
contributions; the contribution of the noise source is the noise after the room's responses; and
the contribution of the loudspeakers is the recorded loudspeaker signal after the responses that the
simulator had when the processor was made. -/
theorem C168_error {base : SimCfg R (IrMat R) (Fir R) S (G × Coll (K × K × K) (IrMat R)) (FxSt R) (DData R (FxSt R) V) (DOut R V)}
    {srcs : String → S} {q : FxPar R} (h : AncScene base ext i freq as os t srcs q) (hcon : base.contrib = true)
    {n l m : Arr (K × K × K)} (hn : n ∈ as) (hnk : n.kind = some .free) (hl : l ∈ as) (hln : l.name = "loudspeaker")
    (hm : m ∈ as) (hmk : m.kind = some .mic)
    (honly : ∀ a ∈ as, (a.kind = some .free ∨ a.kind = some .ctrl) → a = n ∨ a = l)
    (hstill : n.dynamic = false ∧ l.dynamic = false ∧ m.dynamic = false)
    {x : Nat → Nat → R} (hx : IsStream base.srcGet (srcs n.name) n.num x)
    {g : G} {f0 : Fir R} {diags : Coll (K × K × K) (IrMat R) → Except PyErr (List (Diag (DData R (FxSt R) V)))}
    {fin : SimSt R (Fir R) S (G × Coll (K × K × K) (IrMat R)) (FxSt R) (DData R (FxSt R) V) (DOut R V)}
    (hfin : ancSimulate base ext i g (planned freq as os t) srcs q.bs q.ub q.L q.mu q.beta q.norm f0 diags = .ok fin)
    {info : DiagInfo} {name1 name2 name3 name4 : String} {ex : Option IdxSel}
    (hds : ∀ c ds, c.arrays = as → diags c = .ok ds → (ds.map Diag.name).Nodup ∧
      (∃ d ∈ ds, mkRecordSignal info name1 m.name ex none m.num none = .ok d) ∧
      (∃ d ∈ ds, mkRecordSignal info name2 (n.name ++ "~" ++ m.name) ex none m.num none = .ok d) ∧
      (∃ d ∈ ds, mkRecordSignal info name3 ("loudspeaker~" ++ m.name) ex none m.num none = .ok d) ∧
      ∃ d ∈ ds, mkRecordSignal info name4 "loudspeaker" ex none l.num none = .ok d)
    (htot : info.tot = base.tot) (hpos : 0 < base.tot) :
    ∃ par gc hN hL, roomSetup ext i g (planned freq as os t) = .ok (par, gc) ∧
      gc.2.paths n.name m.name = some hN ∧ gc.2.paths "loudspeaker" m.name = some hL ∧
      ∃ e p s y : Nat → Nat → R, Recording fin.diags name1 m.name m.num base.tot e ∧
        Recording fin.diags name2 (n.name ++ "~" ++ m.name) m.num base.tot p ∧
        Recording fin.diags name3 ("loudspeaker~" ++ m.name) m.num base.tot s ∧
        Recording fin.diags name4 "loudspeaker" l.num base.tot y ∧
        ∀ c < m.num, ∀ t < base.tot, e c t = p c t + s c t ∧
          p c t = throughPath hN n.num (fun i t => if -((if base.warm then base.B else 1 : Nat) : Int) < t then
            x i (t + (if base.warm then base.B else 1 : Nat) - 1).toNat else 0) c t ∧
          s c t = throughPath hL l.num (fun i t => if t < 0 then 0 else y i t.toNat) c t := by
  obtain ⟨par, gc, sp, ds, st0, hset, harr, hu, -, hds', hrun⟩ := h.ran hfin fun c ds hc hd => (hds c ds hc hd).1
  obtain ⟨k1, ⟨d1, e1, f1⟩, ⟨d2, e2, f2⟩, ⟨d3, e3, f3⟩, ⟨d4, e4, f4⟩⟩ := hds gc.2 ds harr hds'
  have inj : ∀ {a b : Arr (K × K × K)}, a ∈ as → b ∈ as → a.name = b.name → a = b := fun ha hb e =>
    List.inj_on_of_nodup_map h.plan.names ha hb e
  obtain ⟨l', hl1, hl2, hlk, hlnum⟩ := h.ls
  obtain rfl : l = l' := inj hl hl1 (hln.trans hl2.symm)
  have hmi : (⟨m.name, m.num, .mic, m.dynamic⟩ : ArrInfo) ∈ infosOf as := mem_infosOf.2 ⟨m, hm, hmk, rfl, rfl, rfl⟩
  have hni : (⟨n.name, n.num, .free, n.dynamic⟩ : ArrInfo) ∈ infosOf as := mem_infosOf.2 ⟨n, hn, hnk, rfl, rfl, rfl⟩
  have hli : (⟨l.name, l.num, .ctrl, l.dynamic⟩ : ArrInfo) ∈ infosOf as := mem_infosOf.2 ⟨l, hl, hlk, rfl, rfl, rfl⟩
  have hls : n.name ≠ "loudspeaker" := by
    intro e
    rw [inj hn hl (e.trans hl2.symm), hlk] at hnk
    cases hnk
  obtain ⟨hN, p1, -⟩ := hu.paths n (by rw [harr]; exact hn) m (by rw [harr]; exact hm) (.inl hnk) hmk
  obtain ⟨hL, p2, -⟩ := hu.paths l (by rw [harr]; exact hl) m (by rw [harr]; exact hm) (.inr hlk) hmk
  have hNm := (fx_init hrun.scene sp hrun.init).1
  obtain ⟨X, Y, hX1, hY, hloop⟩ := h.loop hn hx hset hu hrun
  generalize hcfg : roomCfg { base with proc := some (fxProc q) } ext i par as = cfg at hrun hNm hY hloop
  have hc : cfg.contrib = true := by rw [← hcfg]; exact hcon
  have ht : cfg.tot = base.tot := by rw [← hcfg]; rfl
  have har : cfg.arrays = infosOf as := by rw [← hcfg]; rfl
  have hw : ∀ i t, cfg.playedWith X Y n.name i t = if -((if base.warm then base.B else 1 : Nat) : Int) < t then
      x i (t + (if base.warm then base.B else 1 : Nat) - 1).toNat else 0 := by
    intro i t
    unfold SimCfg.playedWith SimCfg.played
    have q1 : cfg.warm = base.warm := by rw [← hcfg]; rfl
    have q2 : cfg.B = base.B := by rw [← hcfg]; rfl
    rw [if_neg hls, hX1]
    simp only [q1, q2, har]
    by_cases hh : -((if base.warm then base.B else 1 : Nat) : Int) < t
    · rw [if_pos ⟨⟨_, hni, rfl, rfl⟩, hh⟩, if_pos hh]
    · rw [if_neg (fun hh' => hh hh'.2), if_neg hh]
  have hwl : ∀ i t, cfg.playedWith X Y l.name i t = if t < 0 then 0 else Y i t.toNat := by
    intro i t
    unfold SimCfg.playedWith
    rw [if_pos hln]
  have hir : ∀ {s : Arr (K × K × K)} {k : ArrKind} {H x : IrMat R} {t : Nat}, s.dynamic = false → gc.2.paths s.name m.name = some H →
      cfg.IrAt gc ⟨s.name, s.num, k, s.dynamic⟩ ⟨m.name, m.num, .mic, m.dynamic⟩ t x → x = H := by
    intro s k H x t hsd hH hi
    have : cfg.arrPath gc s.name m.name = .ok x := by
      cases t with
      | zero => exact hi
      | succ t =>
        simp only [SimCfg.IrAt] at hi
        rwa [if_neg (by rw [hsd, hstill.2.2]; simp)] at hi
    rw [← hcfg] at this
    change Coll.path gc s.name m.name = .ok x at this
    unfold Coll.path at this
    rw [hH] at this
    cases this
    rfl
  have hval : ∀ t ≤ base.tot, ∀ c < m.num,
      cfg.Produced st0 m.name c t (throughPath hN n.num (cfg.playedWith X Y n.name) c t + throughPath hL l.num (cfg.playedWith X Y l.name) c t) ∧
      cfg.Produced st0 (n.name ++ "~" ++ m.name) c t (throughPath hN n.num (cfg.playedWith X Y n.name) c t) ∧
      cfg.Produced st0 (l.name ++ "~" ++ m.name) c t (throughPath hL l.num (cfg.playedWith X Y l.name) c t) := by
    intro t' ht' c hc'
    obtain ⟨ir, g1, g2⟩ := hloop _ hmi rfl t' ht'
    have i1 := hir hstill.1 p1 (g1 _ hni (by simp))
    have i2 := hir hstill.2.1 p2 (g1 _ hli (by simp))
    obtain ⟨o1, o2⟩ := g2 c hc'
    have c1 := o2 hcon _ hni (by simp)
    have c2 := o2 hcon _ hli (by simp)
    have hc1 : ∀ u, convSum [(⟨n.name, n.num, .free, n.dynamic⟩ : ArrInfo)] ir u c t' = throughPath hN n.num (u n.name) c t' := by
      intro u
      unfold convSum throughPath
      dsimp only at i1
      simp only [List.map_cons, List.map_nil, List.sum_cons, List.sum_nil, add_zero, i1]
    have hc2 : ∀ u, convSum [(⟨l.name, l.num, .ctrl, l.dynamic⟩ : ArrInfo)] ir u c t' = throughPath hL l.num (u l.name) c t' := by
      intro u
      unfold convSum throughPath
      dsimp only at i2
      simp only [List.map_cons, List.map_nil, List.sum_cons, List.sum_nil, add_zero, i2]
    have hsum : ∀ u, convSum ((infosOf as).filter fun s => s.kind != .mic) ir u c t' =
        convSum [(⟨n.name, n.num, .free, n.dynamic⟩ : ArrInfo)] ir u c t' + convSum [(⟨l.name, l.num, .ctrl, l.dynamic⟩ : ArrInfo)] ir u c t' := by
      intro u
      unfold convSum
      rw [sum_srcs_two ((nodup_map_of h.infos_nodup).filter _) (List.mem_filter.2 ⟨hni, rfl⟩) (List.mem_filter.2 ⟨hli, rfl⟩) (by simp) ?_]
      · simp only [List.map_cons, List.map_nil, List.sum_cons, List.sum_nil, add_zero]
      · intro a ha
        obtain ⟨ha1, ha2⟩ := List.mem_filter.1 ha
        obtain ⟨b, hb, b1, b2, b3, b4⟩ := mem_infosOf.1 ha1
        have hbk : b.kind = some .free ∨ b.kind = some .ctrl := by
          rw [b1]
          cases hk : a.kind
          · rw [hk] at ha2; cases ha2
          · exact .inl rfl
          · exact .inr rfl
        rcases honly b hb hbk with rfl | rfl
        · exact .inl (hNm.inj _ (by rw [har]; exact ha1) _ (by rw [har]; exact hni) b2.symm)
        · exact .inr (hNm.inj _ (by rw [har]; exact ha1) _ (by rw [har]; exact hli) b2.symm)
    rw [hsum, hc1, hc2] at o1
    rw [hc1] at c1
    rw [hc2] at c2
    exact ⟨o1, c1, c2⟩
  have hdims : ∀ {s : ArrInfo}, s ∈ infosOf as → s.kind ≠ .mic → cfg.dims (s.name ++ "~" ++ m.name) = some m.num := by
    intro s hs hk
    refine hNm.con hc (s, ⟨m.name, m.num, .mic, m.dynamic⟩) (mem_combosOf.2 ⟨?_, ?_⟩)
    · rw [har]
      exact List.mem_filter.2 ⟨hs, by simpa using hk⟩
    · rw [har]
      exact List.mem_filter.2 ⟨hmi, rfl⟩
  have hnx : ∀ {s : ArrInfo}, s ∈ infosOf as → s.kind ≠ .mic → s.name ++ "~" ++ m.name ≠ "xf" := by
    intro s _ _ e
    have h1 : '~' ∈ (s.name ++ "~" ++ m.name).toList := by simp
    rw [e] at h1
    revert h1
    decide
  have c3 : "loudspeaker~" ++ m.name = l.name ++ "~" ++ m.name := by rw [hln]; rfl
  refine ⟨par, gc, hN, hL, hset, p1, by rw [← hln]; exact p2,
    fun c t => throughPath hN n.num (cfg.playedWith X Y n.name) c t + throughPath hL l.num (cfg.playedWith X Y l.name) c t,
    fun c t => throughPath hN n.num (cfg.playedWith X Y n.name) c t, fun c t => throughPath hL l.num (cfg.playedWith X Y l.name) c t, Y,
    ?_, ?_, ?_, ?_, fun c hc t ht => ⟨rfl, ?_, ?_⟩⟩
  · rw [← ht]
    exact hrun.recording e1 f1 (by rw [ht]; exact htot) (by rw [ht]; exact hpos) (hNm.arr _ (by rw [har]; exact hmi)) (h.own m hm)
      fun c hc t' ht' => (hval t' (by omega) c hc).1
  · rw [← ht]
    exact hrun.recording e2 f2 (by rw [ht]; exact htot) (by rw [ht]; exact hpos) (hdims hni (by simp)) (hnx hni (by simp))
      fun c hc t' ht' => (hval t' (by omega) c hc).2.1
  · rw [← ht, c3]
    rw [c3] at f3
    exact hrun.recording e3 f3 (by rw [ht]; exact htot) (by rw [ht]; exact hpos) (hdims hli (by simp)) (hnx hli (by simp))
      fun c hc t' ht' => (hval t' (by omega) c hc).2.2
  · rw [← ht]
    rw [← hln] at f4 ⊢
    exact hrun.recording e4 f4 (by rw [ht]; exact htot) (by rw [ht]; exact hpos) (hNm.arr _ (by rw [har]; exact hli)) (h.own l hl)
      fun c hc t' ht' => by rw [hln]; exact hY c (by rw [← hlnum]; exact hc) t' (by omega)
  · exact congrArg (fun u => throughPath hN n.num u c t) (funext fun i => funext fun t => hw i t)
  · exact congrArg (fun u => throughPath hL l.num u c t) (funext fun i => funext fun t => hwl i t)

/-- C168 for the example as it is shipped: at every error microphone and time index the recording
"sig_error" is the sum of "sig_primary_noise" and "sig_secondary_noise", and the latter is
"sig_ls" after the responses from the loudspeakers to the error microphones, which are those the
processor got. -/
theorem C168_shipped {pe pr pl pn : List (K × K × K)} (he : pe ≠ []) (hr : pr ≠ []) (hl : pl ≠ [])
    (hn : pn.length = pr.length) (hfreq : 1 ≤ freq) (hdims : i.dims = 3)
    (hrev : 0 < i.rt60 → ∃ r, ext.inverseSabine i.rt60 i.size = .ok r) (hext : ∀ par, (i.cfg ext par).Lawful)
    (base : SimCfg R (IrMat R) (Fir R) S (G × Coll (K × K × K) (IrMat R)) (FxSt R) (DData R (FxSt R) V) (DOut R V))
    (hdiag : base.diag = diagOps R (FxSt R) V) (hfilt : base.filt = firOps R) (hB : base.B = 1000) (hC : base.C = 10000)
    (htot : 0 < base.tot) (hcon : base.contrib = true) {srcs : String → S} {x : Nat → Nat → R}
    (hx : IsStream base.srcGet (srcs "noise") pn.length x) {mu beta : R} {norm : FxNorm}
    (hreg : norm = .none ∨ ∀ l : List R, (l.map fun x => x * x).sum + beta ≠ 0) {info : DiagInfo}
    (hi : info.tot = base.tot) (hf : 0 < info.exportFreq) (hs : info.smoothing ≠ 0) (v : V) {f0 : Fir R} {g : G}
    {fin : SimSt R (Fir R) S (G × Coll (K × K × K) (IrMat R)) (FxSt R) (DData R (FxSt R) V) (DOut R V)}
    (hfin : ancSimulate base ext i g (planned freq (exampleArrays pe pr pl pn) exampleTypes "ism") srcs 1 512 512 mu beta norm f0
      (fun c => exampleDiagnostics info c.arrays pl.length pe.length fun _ => .ok v) = .ok fin) :
    ∃ par gc hN hL, roomSetup ext i g (planned freq (exampleArrays pe pr pl pn) exampleTypes "ism") = .ok (par, gc) ∧
      gc.2.paths "noise" "error" = some hN ∧ gc.2.paths "loudspeaker" "error" = some hL ∧
      ∃ e p s y : Nat → Nat → R, Recording fin.diags "sig_error" "error" pe.length base.tot e ∧
        Recording fin.diags "sig_primary_noise" "noise~error" pe.length base.tot p ∧
        Recording fin.diags "sig_secondary_noise" "loudspeaker~error" pe.length base.tot s ∧
        Recording fin.diags "sig_ls" "loudspeaker" pl.length base.tot y ∧
        ∀ c < pe.length, ∀ t < base.tot, e c t = p c t + s c t ∧
          p c t = throughPath hN pn.length (fun i t => if -((if base.warm then base.B else 1 : Nat) : Int) < t then
            x i (t + (if base.warm then base.B else 1 : Nat) - 1).toNat else 0) c t ∧
          s c t = throughPath hL pl.length (fun i t => if t < 0 then 0 else y i t.toNat) c t := by
  have hS := example_scene (mu := mu) (pe := pe) (pr := pr) (pl := pl) (exampleArrays_plan he hr hl hn hfreq hdims hrev hext) hdiag hfilt hB hC hcon hx hreg
  refine C168_error hS hcon (n := stillArr "noise" .free pn) (l := stillArr "loudspeaker" .ctrl pl) (m := stillArr "error" .mic pe)
    (by simp [exampleArrays]) rfl (by simp [exampleArrays]) rfl (by simp [exampleArrays]) rfl ?_ ⟨rfl, rfl, rfl⟩ hx hfin (info := info) (ex := none) ?_ hi htot
  · intro a ha hk
    simp only [exampleArrays, List.mem_cons, List.not_mem_nil, or_false] at ha
    rcases ha with rfl | rfl | rfl | rfl
    · rcases hk with h | h <;> cases h
    · rcases hk with h | h <;> cases h
    · exact .inr rfl
    · exact .inl rfl
  · intro c ds hc hd
    obtain ⟨ds', d1, d2, -, -, d5⟩ := example_diags (mu := mu) (beta := beta) (norm := norm) he hr hl base htot hcon hi hf hs v c hc
    rw [hd] at d1
    cases d1
    exact ⟨d2, d5 ("sig_error", "error", pe.length) (by simp), d5 ("sig_primary_noise", "noise~error", pe.length) (by simp),
      d5 ("sig_secondary_noise", "loudspeaker~error", pe.length) (by simp), d5 ("sig_ls", "loudspeaker", pl.length) (by simp)⟩

end

/-- The box with one noise source, two error microphones and three loudspeakers: the recordings of a
whole run of the example. -/
example (g : Nat) : ∃ fin, ancSimulate ancBase boxExt boxInfo g
    (planned 2 (exampleArrays [(0, 1, 3), (0, 2, 3)] [(3, 1, 3)] [(1, 1, 3), (1, 2, 3), (1, 0, 3)] [(3, 1, 3)]) exampleTypes "ism")
    (fun _ => 0) 1 512 512 (1 / 100) (1 / 1000) .none demoFilt
    (fun c => exampleDiagnostics ⟨10000, 2000, 512⟩ c.arrays 3 2 fun _ => .ok 0) = .ok fin ∧
    ∃ e p s : Nat → Nat → ℚ, Recording fin.diags "sig_error" "error" 2 10000 e ∧
      Recording fin.diags "sig_primary_noise" "noise~error" 2 10000 p ∧
      Recording fin.diags "sig_secondary_noise" "loudspeaker~error" 2 10000 s ∧ e 1 9999 = p 1 9999 + s 1 9999 := by
  have hx : IsStream ancBase.srcGet ((fun _ => 0 : String → Nat) "noise") 1 fun _ t => ((0 + t + 1 : Nat) : ℚ) := open_stream 0
  obtain ⟨fin, h1, -⟩ := C166_shipped (pe := [((0 : ℚ), (1 : ℚ), (3 : ℚ)), (0, 2, 3)]) (pr := [(3, 1, 3)])
    (pl := [(1, 1, 3), (1, 2, 3), (1, 0, 3)]) (pn := [(3, 1, 3)]) (freq := 2) (i := boxInfo) (ext := boxExt)
    (by simp) (by simp) (by simp) rfl (by omega) rfl plan_demo.reverberation box_lawful ancBase rfl rfl rfl rfl
    ⟨by decide, by decide⟩ rfl (srcs := fun _ => 0) hx (mu := 1 / 100) (beta := 1 / 1000)
    (norm := .none) (.inl rfl) (info := ⟨10000, 2000, 512⟩) rfl (by decide) (by decide) 0 demoFilt g
  obtain ⟨par, gc, hN, hL, -, -, -, e, p, s, y, r1, r2, r3, -, r5⟩ := C168_shipped (pe := [((0 : ℚ), (1 : ℚ), (3 : ℚ)), (0, 2, 3)])
    (pr := [(3, 1, 3)]) (pl := [(1, 1, 3), (1, 2, 3), (1, 0, 3)]) (pn := [(3, 1, 3)]) (freq := 2) (i := boxInfo) (ext := boxExt)
    (by simp) (by simp) (by simp) rfl (by omega) rfl plan_demo.reverberation box_lawful ancBase rfl rfl rfl rfl
    (by decide) rfl (srcs := fun _ => 0) hx (.inl rfl) (info := ⟨10000, 2000, 512⟩) rfl (by decide) (by decide) 0 h1
  exact ⟨fin, h1, e, p, s, r1, r2, r3, (r5 1 (by decide) 9999 (by decide)).1⟩

end Verif
