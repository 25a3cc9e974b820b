/-
The example scripts with a processor (C171, C172).
-/
import Verif.Props.Scripts
import Verif.Lemmas.Adaptive
import Verif.Props.Anc
namespace Verif

section
variable {K R G S P V : Type} [Field K] [LinearOrder K] [Field R] [DecidableEq R]
  {ext : RoomExt K R G} {i : RoomInfo K} {freq : Nat} {as : List (Arr (K × K × K))} {os : List (PathOp R)} {t : String}

omit [Field K] [LinearOrder K] in
theorem infosOf_nodup (h : (as.map Arr.name).Nodup) : (infosOf as).Nodup := by
  refine nodup_map_of (f := ArrInfo.name) (List.Nodup.sublist ?_ h)
  unfold infosOf
  clear h
  induction as with
  | nil => exact List.Sublist.refl _
  | cons a as ih =>
    cases hk : a.kind with
    | none => rw [List.filterMap_cons_none (by rw [hk]; rfl)]; exact ih.cons _
    | some k =>
      rw [List.filterMap_cons_some (b := ⟨a.name, a.num, k, a.dynamic⟩) (by rw [hk]; rfl)]
      exact ih.cons_cons _

/-- A microphone that the processor leaves alone has the convolution of what the sources emitted with the
responses that the user expects. -/
theorem room_mic (h : RoomPlan ext i freq as os t)
    {base : SimCfg R (IrMat R) (Fir R) S (G × Coll (K × K × K) (IrMat R)) P (DData R P V) (DOut R V)} (hfilt : base.filt = firOps R)
    {g : G} {par : K × Nat} {gc : G × Coll (K × K × K) (IrMat R)}
    (hset : roomSetup ext i g (planned freq as os t) = .ok (par, gc)) (hu : Usable (i.cfg ext par) (infosOf as) gc.2)
    {lp : ProcView R P} {srcs : String → S} {proc : P} {f0 : Fir R} {ds : List (Diag (DData R P V))}
    {st0 fin : SimSt R (Fir R) S (G × Coll (K × K × K) (IrMat R)) P (DData R P V) (DOut R V)}
    (hrun : CompletedRun (roomCfg base ext i par as) lp srcs gc proc f0 ds st0 fin) (hpos : 0 < base.tot)
    {m : Arr (K × K × K)} (hm : m ∈ as) (hmk : m.kind = some .mic) (hkeep : ∀ p, base.proc = some p → p.Keeps m.name) :
    ∃ u : String → Nat → Int → R,
      (∀ s ∈ infosOf as, s.kind ≠ .mic → ∀ j < s.num, ∀ n ≤ (base.tot : Int),
        (roomCfg base ext i par as).Emitted st0 s.name j n (u s.name j n)) ∧
      ∃ ir : Nat → String → IrMat R,
        (∀ n < base.tot, ∀ s ∈ as, s.kind = some .free ∨ s.kind = some .ctrl →
          ExpectedIr (i.cfg ext par) freq os t s m n (ir n s.name) ∧
          (¬ s.dynamic = true → ¬ m.dynamic = true → ir n s.name = ir 0 s.name)) ∧
        ∀ n < base.tot, ∀ c < m.num, (roomCfg base ext i par as).Produced st0 m.name c n
          (convSum ((infosOf as).filter fun s => s.kind != .mic) (ir n) u c n) := by
  have harr := h.arrays hset
  obtain ⟨st, hst⟩ := hrun.steps
  have hmi : (⟨m.name, m.num, .mic, m.dynamic⟩ : ArrInfo) ∈ infosOf as := mem_infosOf.2 ⟨m, hm, hmk, rfl, rfl, rfl⟩
  obtain ⟨u, hu1, hall⟩ := C14_filtering hrun.started hst hfilt
    (fun a ha => by obtain ⟨b, hb, -, -, e3, -⟩ := mem_infosOf.1 ha; rw [← e3]; exact h.channels b hb)
    (h.shape hset hu) hmi rfl hkeep
  refine ⟨u, hu1, ?_⟩
  have hex : ∀ n, ∃ ir : String → IrMat R, n < base.tot →
      (∀ s ∈ infosOf as, s.kind ≠ .mic → (roomCfg base ext i par as).IrAt gc s ⟨m.name, m.num, .mic, m.dynamic⟩ n (ir s.name)) ∧
      ∀ c < m.num, (roomCfg base ext i par as).Produced st0 m.name c n
        (convSum ((infosOf as).filter fun s => s.kind != .mic) ir u c n) := by
    intro n
    by_cases hn : n < base.tot
    · obtain ⟨ir, g1, g2⟩ := hall n (Nat.le_of_lt hn)
      exact ⟨ir, fun _ => ⟨g1, g2⟩⟩
    · exact ⟨fun _ => ⟨0, 0, fun _ _ => []⟩, fun h => absurd h hn⟩
  choose ir hir using hex
  have hgen : ∀ n < base.tot, ∀ s ∈ as, s.kind = some .free ∨ s.kind = some .ctrl →
      if (s.dynamic = true ∨ m.dynamic = true) ∧ 1 ≤ n then
        GeneratedAt (createPath (i.cfg ext par)) gc.2 s.name m.name (gc.2.freq * ((n - 1) / gc.2.freq)) (ir n s.name)
      else gc.2.paths s.name m.name = some (ir n s.name) := by
    intro n hn s hs hsk
    obtain ⟨ks, hks⟩ := Option.ne_none_iff_exists'.1 (h.kinds s hs)
    have hsi : (⟨s.name, s.num, ks, s.dynamic⟩ : ArrInfo) ∈ infosOf as := mem_infosOf.2 ⟨s, hs, hks, rfl, rfl, rfl⟩
    have hne : ks ≠ .mic := by
      rintro rfl
      rw [hks] at hsk
      rcases hsk with e | e <;> cases e
    exact irAt_generated hu.con (g0 := gc.1) (cfg := roomCfg base ext i par as) rfl rfl (by rw [harr]; exact hs) hsk (by rw [harr]; exact hm) hmk
      ((hir n hn).1 _ hsi hne)
  refine ⟨ir, fun n hn s hs hsk => ⟨h.expected hset hs hm hsk hmk (hgen n hn s hs hsk), fun h1 h2 => ?_⟩, fun n hn => (hir n hn).2⟩
  have e1 := hgen n hn s hs hsk
  have e2 := hgen 0 hpos s hs hsk
  rw [if_neg (by tauto)] at e1 e2
  rw [e1] at e2
  exact Option.some.inj e2

/-- C171. A microphone array with a direct path from one free source and none from the other sources
records that source, in any room without a high-pass filter and with any processor that leaves the
microphone signals alone. -/
theorem C171_direct (h : RoomPlan ext i freq as os t) (hlow : ¬ 0 < i.cutoff)
    {base : SimCfg R (IrMat R) (Fir R) S (G × Coll (K × K × K) (IrMat R)) P (DData R P V) (DOut R V)} (hfilt : base.filt = firOps R)
    {g : G} {par : K × Nat} {gc : G × Coll (K × K × K) (IrMat R)}
    (hset : roomSetup ext i g (planned freq as os t) = .ok (par, gc)) (hu : Usable (i.cfg ext par) (infosOf as) gc.2)
    {lp : ProcView R P} {srcs : String → S} {proc : P} {f0 : Fir R} {ds : List (Diag (DData R P V))}
    {st0 fin : SimSt R (Fir R) S (G × Coll (K × K × K) (IrMat R)) P (DData R P V) (DOut R V)}
    (hrun : CompletedRun (roomCfg base ext i par as) lp srcs gc proc f0 ds st0 fin) (hpos : 0 < base.tot)
    {n m : Arr (K × K × K)} (hn : n ∈ as) (hnk : n.kind = some .free) (hm : m ∈ as) (hmk : m.kind = some .mic)
    (hkeep : ∀ p, base.proc = some p → p.Keeps m.name) (hdir : HasType os t n m "direct")
    (hnone : ∀ a ∈ as, (a.kind = some .free ∨ a.kind = some .ctrl) → a ≠ n → HasType os t a m "none")
    {x : Nat → Nat → R} (hx : IsStream base.srcGet (srcs n.name) n.num x) :
    ∀ k < base.tot, ∀ c < m.num, (roomCfg base ext i par as).Produced st0 m.name c k
      (x c ((if base.warm then base.B - 1 else 0) + k)) := by
  have inj : ∀ {a b : Arr (K × K × K)}, a ∈ as → b ∈ as → a.name = b.name → a = b := fun ha hb e =>
    List.inj_on_of_nodup_map h.names ha hb e
  have hni : (⟨n.name, n.num, .free, n.dynamic⟩ : ArrInfo) ∈ infosOf as := mem_infosOf.2 ⟨n, hn, hnk, rfl, rfl, rfl⟩
  have hnum : n.num = m.num := by
    have := h.types n hn m hm (.inl hnk) hmk hdir.1
    rw [hdir.2] at this
    rcases this with e | e | ⟨-, e⟩ | ⟨e, -⟩
    · exact absurd e (by decide)
    · exact absurd e (by decide)
    · exact e
    · exact absurd e (by decide)
  obtain ⟨u, hu1, ir, hir, hout⟩ := room_mic h hfilt hset hu hrun hpos hm hmk hkeep
  obtain ⟨st, hst⟩ := hrun.steps
  intro k hk c hc
  have hval := hout k hk c hc
  rw [convSum_plain (s := ⟨n.name, n.num, .free, n.dynamic⟩) ?_ ?_
    (fun a => if a.name = n.name then "direct" else "none") (fun a => a.num) ?_ (if_pos rfl) ?_ (by rw [hnum]; exact hc)] at hval
  · have e := hu1 _ hni (fun e => by cases e) c (by rw [hnum]; exact hc) k (by exact_mod_cast Nat.le_of_lt hk)
    unfold SimCfg.Emitted at e
    rw [if_pos (Int.natCast_nonneg _), Int.toNat_natCast] at e
    have e' := (C12_source_order hrun.started hst hni rfl hx k (Nat.le_of_lt hk) c _).1 e
    rw [e'.2] at hval
    exact hval
  · exact (infosOf_nodup h.names).filter _
  · exact List.mem_filter.2 ⟨hni, rfl⟩
  · intro a ha
    obtain ⟨ha1, ha2⟩ := List.mem_filter.1 ha
    obtain ⟨b, hb, e1, e2, e3, -⟩ := mem_infosOf.1 ha1
    have hbk : b.kind = some .free ∨ b.kind = some .ctrl := by
      rw [e1]
      cases hk : a.kind
      · rw [hk] at ha2; cases ha2
      · exact .inl rfl
      · exact .inr rfl
    refine ⟨m.num, ?_⟩
    have hi := (hir k hk b hb hbk).1
    have hlow' : (i.cfg ext par).highpass = false := decide_eq_false hlow
    unfold ExpectedIr at hi
    rw [e2] at hi
    by_cases e : a.name = n.name
    · have hbn : b = n := inj hb hn (e2.trans e)
      rw [hbn, hdir.1, hdir.2] at hi
      obtain ⟨g1, g2, hh⟩ := hi
      rw [if_pos e, createPath_plain hlow' (.inr rfl) hh, ← e3, hbn]
      rfl
    · have hne : b ≠ n := fun e' => e (by rw [← e2, e'])
      rw [(hnone b hb hbk hne).1, (hnone b hb hbk hne).2] at hi
      obtain ⟨g1, g2, hh⟩ := hi
      rw [if_neg e, createPath_plain hlow' (.inl rfl) hh, ← e3]
      rfl
  · intro a ha hne
    refine if_neg fun e => hne ?_
    exact hrun.started.nm.inj a (List.mem_filter.1 ha).1 _ hni e

/-! ### The debug example -/

theorem debugArrays_plan (s l p : K × K × K) (hfreq : 1 ≤ freq)
    (hrev : 0 < i.rt60 → ∃ r, ext.inverseSabine i.rt60 i.size = .ok r) (hext : ∀ par, (i.cfg ext par).Lawful) :
    RoomPlan ext i freq (debugArrays s l p) (debugTypes : List (PathOp R)) "ism" where
  names := by
    show ["src", "loudspeaker", "mic"].Nodup
    decide
  kinds := by
    intro a ha
    simp only [debugArrays, List.mem_cons, List.not_mem_nil, or_false] at ha
    rcases ha with rfl | rfl | rfl <;> exact Option.some_ne_none _
  channels := by
    intro a ha
    simp only [debugArrays, List.mem_cons, List.not_mem_nil, or_false] at ha
    rcases ha with rfl | rfl | rfl <;> exact le_refl 1
  sized := by
    intro a ha u
    simp only [debugArrays, List.mem_cons, List.not_mem_nil, or_false] at ha
    rcases ha with rfl | rfl | rfl <;> rfl
  initial := by
    intro a ha f hf
    simp only [debugArrays, List.mem_cons, List.not_mem_nil, or_false] at ha
    rcases ha with rfl | rfl | rfl <;> cases hf
  types := by
    intro a ha b hb hak hbk _
    simp only [debugArrays, List.mem_cons, List.not_mem_nil, or_false] at ha hb
    rcases hb with rfl | rfl | rfl
    · cases hbk
    · cases hbk
    · rcases ha with rfl | rfl | rfl
      · exact .inr (.inr (.inl ⟨rfl, rfl⟩))
      · exact .inl rfl
      · rcases hak with h | h <;> cases h
  moving := fun _ _ _ _ _ _ _ => rfl
  sources := by
    intro b hb _ hd
    simp only [debugArrays, List.mem_cons, List.not_mem_nil, or_false] at hb
    rcases hb with rfl | rfl | rfl <;> cases hd
  interval := hfreq
  reverberation := hrev
  external := hext

theorem debug_signals {base : SimCfg R (IrMat R) (Fir R) S (G × Coll (K × K × K) (IrMat R)) (DebugSt R) (DData R (DebugSt R) V) (DOut R V)}
    {tot bs : Nat} (hproc : base.proc = some (debugProc tot bs)) (s l p : K × K × K) :
    ((base.withArrays (debugArrays s l p)).signalList.map (·.1)).Nodup ∧
    (base.withArrays (debugArrays s l p)).dims "mic" = some 1 ∧ (base.withArrays (debugArrays s l p)).dims "loudspeaker" = some 1 := by
  have hsl : (base.withArrays (debugArrays s l p)).signalList =
      [("src", 1), ("loudspeaker", 1), ("mic", 1)] ++ if base.contrib then [("src~mic", 1), ("loudspeaker~mic", 1)] else [] := by
    unfold SimCfg.signalList
    rw [show (base.withArrays (debugArrays s l p)).proc = some (debugProc tot bs) from hproc,
      show (base.withArrays (debugArrays s l p)).contrib = base.contrib from rfl]
    cases base.contrib <;> rfl
  unfold SimCfg.dims
  rw [hsl]
  cases base.contrib <;> decide

/-- C171, `example_debug.py`: for every block size that the buffer and the chunk can hold, every length and
all places, the script runs to its end.  What the processor has logged of the microphone is exactly
what the diagnostic has recorded and, if the block size divides the length, what the file written at the
end has, so the two arrays that the script compares are the same.  Without a high-pass filter they
have the samples of the noise. -/
theorem C171_debug (s l p : K × K × K) (hfreq : 1 ≤ freq)
    (hrev : 0 < i.rt60 → ∃ r, ext.inverseSabine i.rt60 i.size = .ok r) (hext : ∀ par, (i.cfg ext par).Lawful)
    (base : SimCfg R (IrMat R) (Fir R) S (G × Coll (K × K × K) (IrMat R)) (DebugSt R) (DData R (DebugSt R) V) (DOut R V))
    (hdiag : base.diag = diagOps R (DebugSt R) V) (hfilt : base.filt = firOps R) {bs : Nat} (hbs : 1 ≤ bs)
    (hproc : base.proc = some (debugProc base.tot bs)) (hB : 2 * bs ≤ base.B + 1 ∧ bs + 1 ≤ base.B)
    (hC : 1 ≤ base.C ∧ (2 ≤ base.C ∨ bs ≤ base.C)) (hplot : base.plotNone = false)
    {srcs : String → S} {x : Nat → Nat → R} (hx : IsStream base.srcGet (srcs "src") 1 x)
    {info : DiagInfo} (htot : info.tot = base.tot) (hpos : 0 < base.tot) (f0 : Fir R) (g : G) :
    ∃ fin, runScript base ext i g (planned freq (debugArrays s l p) debugTypes "ism") srcs (DebugSt.init 1 1 base.tot) f0 info
        (some (.every bs)) [("mic", "mic")] = .ok fin ∧
      ∃ y : Nat → R, Recording fin.diags "mic" "mic" 1 base.tot (fun _ => y) ∧
        fin.eng.proc.mic = [(List.range base.tot).map y] ∧
        (bs ∣ base.tot → ∃ ev ∈ evOf "mic" fin.log, ev.time = base.tot ∧
          ev.out = .series [(List.range base.tot).map y] ((List.range base.tot).map fun (n : Nat) => (n : Int))) ∧
        (¬ 0 < i.cutoff → ∀ n < base.tot, y n = x 0 ((if base.warm then base.B - 1 else 0) + n)) := by
  have hplan := debugArrays_plan (R := R) (ext := ext) (i := i) s l p hfreq hrev hext
  obtain ⟨h1, h2, h3⟩ := debug_signals (base := base) hproc s l p
  set as := debugArrays s l p with has
  have hmem : ∀ a, a ∈ as ↔ a = placedArr "src" .free true [s] ∨ a = placedArr "loudspeaker" .ctrl true [l] ∨ a = placedArr "mic" .mic true [p] := by
    intro a
    simp [as, debugArrays]
  have had : Admissible (base.withArrays as) ((debugProc base.tot bs).view bs) := by
    have hmbs : (base.withArrays as).mbs = bs := by
      unfold SimCfg.mbs
      rw [show (base.withArrays as).proc = some (debugProc base.tot bs) from hproc]
      rfl
    refine ⟨by rw [hmbs]; exact hbs, by rw [hmbs]; exact hB.2, hC.1, ?_, ?_⟩
    · intro q hq
      rw [show (base.withArrays as).proc = some (debugProc base.tot bs) from hproc] at hq
      cases hq
      refine ⟨hC.2, ?_⟩
      show bs + bs ≤ base.B + 1
      omega
    · rw [show (base.withArrays as).proc = some (debugProc base.tot bs) from hproc]
      exact debug_valid _ _ _
  obtain ⟨fin, hfin⟩ := C170_script_runs hplan base hdiag hfilt h1
    (fun b hb hbk => by
      rcases (hmem b).1 hb with rfl | rfl | rfl
      · exact ⟨x, hx⟩
      · cases hbk
      · cases hbk)
    had (L := fun q => (∃ G, q.mic = matOf 1 base.tot G) ∧ ∃ G, q.ls = matOf 1 base.tot G) (proc := DebugSt.init 1 1 base.tot)
    (by
      have : ∀ n, (List.replicate n (List.replicate base.tot (0 : R))) = matOf n base.tot fun _ _ => 0 := by
        intro n; simp [matOf, List.map_const']
      exact ⟨⟨_, this 1⟩, ⟨_, this 1⟩⟩)
    (by
      intro q hq z T a hL
      rw [hproc] at hq
      cases hq
      obtain ⟨⟨G1, e1⟩, ⟨G2, e2⟩⟩ := hL
      obtain ⟨out, e3, -⟩ := debug_act (tot := base.tot) (bs := bs) h2 h3 z e1 e2 T a
      refine ⟨_, out, e3, ?_, ?_⟩
      · exact ⟨fun c x => if z.manual ≤ x ∧ x < z.manual + bs then T "mic" c (a + (x - z.manual : Nat)) else G1 c x, rfl⟩
      · exact ⟨fun c x => if z.manual ≤ x ∧ x < z.manual + bs then T "loudspeaker" c (a + (x - z.manual : Nat)) else G2 c x, rfl⟩)
    (ex := some (.every bs)) (f := bs) rfl hbs htot hpos (l := [("mic", "mic")]) (by simp)
    (fun y hy => by rw [List.mem_singleton] at hy; rw [hy]; exact h2) f0 g
  refine ⟨fin, hfin, ?_⟩
  obtain ⟨par, gc, ds, st0, hset, harr, hu, hds, hrun⟩ := script_ran hplan hdiag had (by simp) hfin
  obtain ⟨d, hd1, hd2⟩ := hds ("mic", "mic") (by simp)
  dsimp only at hd2
  have hm : placedArr "mic" .mic true [p] ∈ as := (hmem _).2 (.inr (.inr rfl))
  have hmi : (⟨"mic", 1, .mic, false⟩ : ArrInfo) ∈ infosOf as := mem_infosOf.2 ⟨_, hm, rfl, rfl, rfl, rfl⟩
  have hli : (⟨"loudspeaker", 1, .ctrl, false⟩ : ArrInfo) ∈ infosOf as :=
    mem_infosOf.2 ⟨_, (hmem _).2 (.inr (.inl rfl)), rfl, rfl, rfl, rfl⟩
  have hkeep : ∀ q, base.proc = some q → q.Keeps "mic" := by
    intro q hq
    rw [hproc] at hq
    cases hq
    exact debug_keeps _ _ (by decide)
  obtain ⟨u, -, ir, -, hout⟩ := room_mic hplan hfilt hset hu hrun hpos hm rfl hkeep
  have hdim := hrun.started.nm.arr _ hmi
  set y : Nat → R := fun n => convSum ((infosOf as).filter fun s => s.kind != .mic) (ir n) u 0 n with hy
  have hprod : ∀ n < base.tot, (roomCfg base ext i par as).Produced st0 "mic" 0 n (y n) := fun n hn =>
    hout n hn 0 (show 0 < 1 by decide)
  refine ⟨y, ?_, ?_, ?_, ?_⟩
  · exact hrun.recording hd1 hd2 htot hpos hdim fun c hc n hn => by
      obtain rfl : c = 0 := by omega
      exact hprod n hn
  · obtain ⟨st, hst, hfe⟩ := hrun.last
    have hmbs : (roomCfg base ext i par as).mbs = bs := by
      unfold SimCfg.mbs
      rw [show (roomCfg base ext i par as).proc = some (debugProc base.tot bs) from hproc]
      rfl
    rw [hmbs] at hst
    obtain ⟨e0, te, he0, _, hte, hp, -⟩ := hrun.started.tape hst
    have hI := debugInv_steps hrun.started.nm hproc hmi rfl rfl hli rfl rfl rfl
      (debugInv_init hrun.started.nm hli rfl rfl he0) (base.tot + bs) hte
    obtain ⟨-, hlog⟩ := C09_log hrun.started hst hproc hmi rfl rfl hli rfl rfl rfl
    obtain ⟨mrow, lrow, r1, -, r3, -, r5⟩ := hlog 0 (by decide)
    have hlen : st.eng.proc.mic.length = 1 := by
      rw [hp, hI.micLog]
      simp [matOf]
    rw [hfe]
    obtain ⟨row, hrow⟩ := List.length_eq_one_iff.1 hlen
    rw [hrow] at r1 ⊢
    cases r1
    congr 1
    refine List.ext_getElem (by simp [r3]) fun n q1 q2 => ?_
    have hn : n < base.tot := by rw [r3] at q1; exact q1
    obtain ⟨v, w, v1, -, v3⟩ := r5 n hn
    have hdv : n < (base.tot + bs) / bs * bs := by
      rw [Nat.add_div_right _ (by omega), Nat.succ_mul]
      have q3 : base.tot / bs * bs + base.tot % bs = base.tot := Nat.div_add_mod' _ _
      have q4 := Nat.mod_lt base.tot (show 0 < bs by omega)
      omega
    replace v3 := (if_pos hdv).mp v3
    rw [List.getElem?_eq_getElem q1] at v1
    rw [Option.some.inj v1, v3.1.unique (hprod n hn)]
    simp
  · intro hdvd
    obtain ⟨k, hk⟩ := hdvd
    have hk1 : 1 ≤ k := by
      rcases Nat.eq_zero_or_pos k with e | e
      · rw [e] at hk; omega
      · exact e
    have htimes := C05_exports_every hrun hplot (.inl rfl) hd2 hd1 htot hpos
    have hin : (base.tot : Int) ∈ (evOf "mic" fin.log).map Event.time := by
      rw [htimes]
      refine List.mem_map.2 ⟨k - 1, List.mem_range.2 ?_, ?_⟩
      · show k - 1 < base.tot / bs
        rw [hk, Nat.mul_div_cancel_left _ (by omega)]
        omega
      · rw [show k - 1 + 1 = k by omega, Nat.mul_comm, ← hk]
    obtain ⟨ev, hev, het⟩ := List.mem_map.1 hin
    obtain ⟨-, sg, g1, g2, g3⟩ := C04_export_content hrun hd2 hd1 htot (ivs := [(0, (base.tot : Int))]) rfl
      ⟨le_refl _, Int.natCast_pos.2 hpos, trivial⟩ (by intro q hq; rw [List.mem_singleton] at hq; subst hq; exact le_refl _)
      hdim (rows := [0]) rfl rfl (by decide) hev (by rw [het]; exact Int.natCast_nonneg _)
    have hfil : (List.range ev.time.toNat).filter (Covered [(0, (base.tot : Int))] ·) = List.range base.tot := by
      rw [het, Int.toNat_natCast, List.filter_eq_self]
      intro n hn
      rw [List.mem_range] at hn
      simp [Covered, hn]
    rw [hfil] at g1 g3
    refine ⟨ev, hev, het, ?_⟩
    rw [g1]
    obtain ⟨row, r1, r2⟩ := g3 0 0 rfl
    obtain ⟨row', hrow⟩ := List.length_eq_one_iff.1 g2
    rw [hrow] at r1 ⊢
    cases r1
    have : row = (List.range base.tot).map y := by
      have hl := r2.length_eq
      refine List.ext_getElem (by simp [← hl]) fun n q1 q2 => ?_
      have hn : n < base.tot := by simpa using q2
      have := List.forall₂_iff_get.1 r2
      have := this.2 n (by simpa using hn) q1
      simp only [List.get_eq_getElem, List.getElem_range] at this
      rw [this.unique (hprod n hn)]
      simp
    rw [this]
  · intro hlow n hn
    have := C171_direct hplan hlow hfilt hset hu hrun hpos (n := placedArr "src" .free true [s]) ((hmem _).2 (.inl rfl)) rfl hm rfl hkeep
      ⟨rfl, rfl⟩
      (by
        intro a ha hak hne
        rcases (hmem a).1 ha with rfl | rfl | rfl
        · exact absurd rfl hne
        · exact ⟨rfl, rfl⟩
        · rcases hak with e | e <;> cases e)
      hx n hn 0 (show 0 < 1 by decide)
    exact (hprod n hn).unique this

/-! ### The processor that plays a sound -/

omit [DecidableEq R] in
theorem play_act {dims : String → Option Nat} {get : P → Nat → Except PyErr (P × Mat R)} {out : String} {num bs : Nat}
    (hd : dims out = some num) {q : P} {off : Nat} {x : Nat → Nat → R} (hq : StreamAt get q num off x) (T : Tape R) (a : Int) :
    ∃ q' o, ((playProc get out bs).view bs).act q (cut dims T a (bs + bs)) = .ok (q', o) ∧ StreamAt get q' num (off + bs) x := by
  obtain ⟨q', e1, e2⟩ := hq.next bs
  show ∃ q' o, (playProcess get out bs q (cut dims T a (bs + bs)) bs).map _ = .ok (q', o) ∧ _
  unfold playProcess
  rw [e1]
  dsimp only
  rw [show blockOf x num off bs = matOf num bs fun c k => x c (off + k) from rfl,
    sigAssign_full T a (bs + bs) bs bs hd (le_refl _) _ rfl rfl]
  exact ⟨q', _, rfl, e2⟩

/-- C172, `example_processor.py`: a loudspeaker at `s`, a microphone at `p` and a processor that plays a
stream of samples, for every block size that the buffer and the chunk can hold, in any room in which the
image-source method works.  The script runs to its end.  The recording of the loudspeaker has
`block_size` zeros and then the samples of the stream; the recording of the microphone has what
becomes of this after passing the response of the image-source method, which never changes. -/
theorem C172_play (s p : K × K × K) (hfreq : 1 ≤ freq) (hdims : i.dims = 3)
    (hrev : 0 < i.rt60 → ∃ r, ext.inverseSabine i.rt60 i.size = .ok r) (hext : ∀ par, (i.cfg ext par).Lawful)
    (base : SimCfg R (IrMat R) (Fir R) S (G × Coll (K × K × K) (IrMat R)) P (DData R P V) (DOut R V))
    (hdiag : base.diag = diagOps R P V) (hfilt : base.filt = firOps R) {bs : Nat} (hbs : 1 ≤ bs)
    {get : P → Nat → Except PyErr (P × Mat R)} (hproc : base.proc = some (playProc get "ls" bs))
    (hB : 2 * bs ≤ base.B + 1 ∧ bs + 1 ≤ base.B) (hC : 1 ≤ base.C ∧ (2 ≤ base.C ∨ bs ≤ base.C))
    {p0 : P} {x : Nat → Nat → R} (hx : IsStream get p0 1 x)
    {info : DiagInfo} (htot : info.tot = base.tot) (hpos : 0 < base.tot) (hf : 0 < info.exportFreq) (srcs : String → S) (f0 : Fir R) (g : G) :
    ∃ fin par, i.parameters ext = .ok par ∧
      runScript base ext i g (planned freq (playArrays s p) [] "ism") srcs p0 f0 info none
        [("loudspeaker_signal", "ls"), ("microphone_signal", "mic")] = .ok fin ∧
      Recording fin.diags "loudspeaker_signal" "ls" 1 base.tot (fun _ n => if n < bs then 0 else x 0 (n - bs)) ∧
      ∃ ir g1 g2, createPath (i.cfg ext par) g1 ⟨1, [s], true⟩ ⟨1, [p], true⟩ "ism" = .ok (g2, ir) ∧
        Recording fin.diags "microphone_signal" "mic" 1 base.tot fun _ n =>
          throughPath ir 1 (fun _ k => if k < bs then 0 else x 0 (k - bs).toNat) 0 n := by
  have hplan := pair_plan (R := R) (ext := ext) (i := i) (a := placedArr "ls" .ctrl true [s])
    (show "ls" ≠ "mic" by decide) (.inr rfl) rfl (fun _ => rfl) (fun f hf => by cases hf) p hfreq hdims hrev hext
  obtain ⟨h1, h2, h3⟩ := pair_signals (base := base) (by rw [hproc]; rintro q ⟨⟩; rfl) (a := placedArr "ls" .ctrl true [s]) (.inr rfl) (.inr rfl) rfl p
  change RoomPlan ext i freq (playArrays s p) _ _ at hplan
  change ((base.withArrays (playArrays s p)).signalList.map (·.1)).Nodup at h1
  change (base.withArrays (playArrays s p)).dims "ls" = some 1 at h2
  change (base.withArrays (playArrays s p)).dims "mic" = some 1 at h3
  set as := playArrays s p with has
  have hmem : ∀ a, a ∈ as ↔ a = placedArr "ls" .ctrl true [s] ∨ a = placedArr "mic" .mic true [p] := by
    intro a
    simp [as, playArrays]
  have had : Admissible (base.withArrays as) ((playProc get "ls" bs).view bs) := by
    have hmbs : (base.withArrays as).mbs = bs := by
      unfold SimCfg.mbs
      rw [show (base.withArrays as).proc = some (playProc get "ls" bs) from hproc]
      rfl
    refine ⟨by rw [hmbs]; exact hbs, by rw [hmbs]; exact hB.2, hC.1, ?_, ?_⟩
    · intro q hq
      rw [show (base.withArrays as).proc = some (playProc get "ls" bs) from hproc] at hq
      cases hq
      refine ⟨hC.2, ?_⟩
      show bs + bs ≤ base.B + 1
      omega
    · rw [show (base.withArrays as).proc = some (playProc get "ls" bs) from hproc, play_eq]
      exact block_valid _ _ _ _ _
  have hl : (([("loudspeaker_signal", "ls"), ("microphone_signal", "mic")] : List (String × String)).map (·.1)).Nodup := by decide
  obtain ⟨fin, hfin⟩ := C170_script_runs hplan base hdiag hfilt h1 (srcs := srcs)
    (fun b hb hbk => by rcases (hmem b).1 hb with rfl | rfl <;> cases hbk)
    had (L := fun q => ∃ off, StreamAt get q 1 off x) (proc := p0) ⟨0, StreamAt.of_isStream hx⟩
    (by
      rintro q hq z T a ⟨off, hoff⟩
      rw [hproc] at hq
      cases hq
      obtain ⟨q', o, e1, e2⟩ := play_act h2 hoff T a
      exact ⟨q', o, e1, _, e2⟩)
    (ex := none) (f := info.exportFreq) rfl hf htot hpos hl
    (fun y hy => by
      simp only [List.mem_cons, List.not_mem_nil, or_false] at hy
      rcases hy with rfl | rfl
      · exact h2
      · exact h3) f0 g
  obtain ⟨par, gc, ds, st0, hset, harr, hu, hds, hrun⟩ := script_ran hplan hdiag had hl hfin
  refine ⟨fin, par, hplan.params hset, hfin, ?_⟩
  have hm : placedArr "mic" .mic true [p] ∈ as := (hmem _).2 (.inr rfl)
  have hs : placedArr "ls" .ctrl true [s] ∈ as := (hmem _).2 (.inl rfl)
  have hmi : (⟨"mic", 1, .mic, false⟩ : ArrInfo) ∈ infosOf as := mem_infosOf.2 ⟨_, hm, rfl, rfl, rfl, rfl⟩
  have hli : (⟨"ls", 1, .ctrl, false⟩ : ArrInfo) ∈ infosOf as := mem_infosOf.2 ⟨_, hs, rfl, rfl, rfl, rfl⟩
  obtain ⟨st, hst⟩ := hrun.steps
  obtain ⟨d1, hd1, hd2⟩ := hds ("loudspeaker_signal", "ls") (by simp)
  obtain ⟨d2, hd3, hd4⟩ := hds ("microphone_signal", "mic") (by simp)
  refine ⟨hrun.recording hd1 hd2 htot hpos (hrun.started.nm.arr _ hli) fun c hc n hn => ?_, ?_⟩
  · have := C131_play hrun.started hst hproc hli rfl rfl hx c hc n (Nat.le_of_lt hn)
    obtain rfl : c = 0 := by omega
    exact this
  · obtain ⟨u, hu1, ir, hir, hout⟩ := room_mic hplan hfilt hset hu hrun hpos hm rfl (fun q hq => by
      rw [hproc] at hq
      cases hq
      rw [play_eq]
      exact block_keeps _ _ _ _ (show "mic" ≠ "ls" by decide))
    have hir0 := (hir 0 hpos _ hs (.inr rfl)).1
    unfold ExpectedIr at hir0
    obtain ⟨g1, g2, e⟩ := hir0
    refine ⟨ir 0 "ls", g1, g2, e, ?_⟩
    refine hrun.recording hd3 hd4 htot hpos (hrun.started.nm.arr _ hmi) fun c hc n hn => ?_
    obtain rfl : c = 0 := by
      have : c < 1 := hc
      omega
    have hrunp := hrun.started
    have hprocp : (roomCfg base ext i par as).proc = some (playProc get "ls" bs) := hproc
    rw [play_eq] at hrunp hprocp
    obtain ⟨_, -, hE⟩ := block_out hrunp hst hprocp (stream_realises hx bs) rfl hli rfl rfl
    have hval := hout n hn 0 (show 0 < 1 by decide)
    have hconv : convSum ((infosOf as).filter fun s => s.kind != .mic) (ir n) u 0 n =
        throughPath (ir 0 "ls") 1 (fun _ k => if k < bs then 0 else x 0 (k - bs).toNat) 0 n := by
      have hinf : (infosOf as).filter (fun s => s.kind != .mic) = [⟨"ls", 1, .ctrl, false⟩] := rfl
      rw [hinf]
      unfold convSum throughPath
      rw [List.map_singleton, List.sum_singleton]
      have hsame := (hir n hn _ hs (.inr rfl)).2 Bool.false_ne_true Bool.false_ne_true
      dsimp only [placedArr] at hsame
      dsimp only
      rw [hsame]
      congr 1
      refine List.map_congr_left fun j hj => ?_
      rw [List.mem_range] at hj
      obtain rfl : j = 0 := by omega
      congr 1
      refine List.map_congr_left fun k _ => ?_
      congr 1
      have hn' : n < base.tot := hn
      have hk : (n : Int) - k ≤ (base.tot : Int) := by omega
      exact (hu1 _ hli (fun e => by cases e) 0 (by decide) _ hk).unique (hE 0 (by decide) _ hk)
    rw [hconv] at hval
    exact hval

end

/-- The debug example with blocks of 4 and 20 samples in a box. -/
example (g : Nat) : ∃ fin, runScript (V := ℚ)
      { ancBase with B := 20, C := 20, tot := 20, proc := some (debugProc 20 4), diag := diagOps ℚ (DebugSt ℚ) ℚ } boxExt boxInfo g
      (planned 2 (debugArrays (3, 1, 3) (1, 1, 3) (0, 1, 3)) debugTypes "ism") (fun _ => 0) (DebugSt.init 1 1 20) demoFilt ⟨20, 4, 4⟩
      (some (.every 4)) [("mic", "mic")] = .ok fin ∧
    fin.eng.proc.mic = [[1, 2, 3, 4, 5, 6, 7, 8, 9, 10, 11, 12, 13, 14, 15, 16, 17, 18, 19, 20]] ∧
    ∃ ev ∈ evOf "mic" fin.log, ev.time = 20 ∧ ∃ ix,
      ev.out = .series [[1, 2, 3, 4, 5, 6, 7, 8, 9, 10, 11, 12, 13, 14, 15, 16, 17, 18, 19, 20]] ix := by
  obtain ⟨fin, h1, y, -, h3, h4, h5⟩ := C171_debug (R := ℚ) (V := ℚ) (ext := boxExt) (i := boxInfo) (freq := 2)
    ((3 : ℚ), (1 : ℚ), (3 : ℚ)) (1, 1, 3) (0, 1, 3) (by decide) plan_demo.reverberation box_lawful
    { ancBase with B := 20, C := 20, tot := 20, proc := some (debugProc 20 4), diag := diagOps ℚ (DebugSt ℚ) ℚ } rfl rfl (bs := 4)
    (by decide) rfl ⟨show 2 * 4 ≤ 20 + 1 by decide, show 4 + 1 ≤ 20 by decide⟩ ⟨show 1 ≤ 20 by decide, .inl (show 2 ≤ 20 by decide)⟩ rfl
    (srcs := fun _ => 0) (open_stream 0) (info := ⟨20, 4, 4⟩) rfl (show 0 < 20 by decide) demoFilt g
  have hy : (List.range 20).map y = [1, 2, 3, 4, 5, 6, 7, 8, 9, 10, 11, 12, 13, 14, 15, 16, 17, 18, 19, 20] := by
    have e : (List.range 20).map y = (List.range 20).map fun n => ((0 + (0 + n) + 1 : Nat) : ℚ) := by
      refine List.map_congr_left fun n hn => ?_
      exact h5 (by decide) n (List.mem_range.1 hn)
    rw [e]
    norm_num [List.range_succ]
  refine ⟨fin, h1, ?_, ?_⟩
  · rw [← hy]
    exact h3
  · obtain ⟨ev, e1, e2, e3⟩ := h4 (show 4 ∣ 20 by decide)
    refine ⟨ev, e1, e2, (List.range 20).map fun (n : Nat) => (n : Int), ?_⟩
    rw [← hy]
    exact e3

/-- Playing 1, 2, 3, ... with blocks of 4 in the box: the sixth sample of the loudspeaker is the second of the stream. -/
example (g : Nat) : ∃ fin, runScript (V := ℚ)
      { ancBase with B := 20, C := 20, tot := 20, proc := some (playProc boxBase.srcGet "ls" 4), diag := diagOps ℚ Nat ℚ } boxExt boxInfo g
      (planned 2 (playArrays (3, 1, 3) (1, 1, 3)) [] "ism") (fun _ => 0) 0 demoFilt ⟨20, 20, 4⟩
      none [("loudspeaker_signal", "ls"), ("microphone_signal", "mic")] = .ok fin ∧
    Recording fin.diags "loudspeaker_signal" "ls" 1 20 (fun _ n => if n < 4 then 0 else ((n - 3 : Nat) : ℚ)) := by
  obtain ⟨fin, par, -, h1, h2, -⟩ := C172_play (R := ℚ) (V := ℚ) (ext := boxExt) (i := boxInfo) (freq := 2)
    ((3 : ℚ), (1 : ℚ), (3 : ℚ)) (1, 1, 3) (by decide) rfl plan_demo.reverberation box_lawful
    { ancBase with B := 20, C := 20, tot := 20, proc := some (playProc boxBase.srcGet "ls" 4), diag := diagOps ℚ Nat ℚ } rfl rfl (bs := 4)
    (by decide) rfl ⟨show 2 * 4 ≤ 20 + 1 by decide, show 4 + 1 ≤ 20 by decide⟩ ⟨show 1 ≤ 20 by decide, .inl (show 2 ≤ 20 by decide)⟩
    (p0 := 0) (open_stream 0) (info := ⟨20, 20, 4⟩) rfl (show 0 < 20 by decide) (show 0 < 20 by decide) (fun _ => 0) demoFilt g
  refine ⟨fin, h1, ?_⟩
  have : (fun (_ n : Nat) => if n < 4 then (0 : ℚ) else ((n - 3 : Nat) : ℚ)) = fun (_ n : Nat) => if n < 4 then 0 else ((0 + (n - 4) + 1 : Nat) : ℚ) := by
    funext _ n
    split
    · rfl
    · congr 1
      omega
  rw [this]
  exact h2

end Verif
