/-
Pairs of arrays with plain propagation in a room, and the arrays of a room simulation.
-/
import Verif.Model.Anc
import Verif.Lemmas.RoomTotal
import Verif.Spec.Fir
import Verif.Spec.Hide
import Verif.Lemmas.Units
import Verif.Lemmas.Recording
namespace Verif

section
variable {Pt R G : Type} [Zero R] [One R]

/-- The path of the types "none" and "direct". -/
def plainPath (ty : String) (n m : Nat) : IrMat R := ⟨n, m, fun i j => [if ty = "direct" ∧ i = j then 1 else 0]⟩

theorem createPath_plain {rc : RirCfg R Pt G} (hlow : rc.highpass = false) {ty : String} (hty : ty = "none" ∨ ty = "direct")
    {g g' : G} {a b : Geo Pt} {x : IrMat R} (h : createPath rc g a b ty = .ok (g', x)) : x = plainPath ty a.num b.num := by
  rcases hty with rfl | rfl
  · unfold createPath at h
    simp only [hlow, Bool.false_eq_true, if_false, if_true] at h
    cases h
    simp [plainPath]
  · unfold createPath at h
    simp only [hlow, Bool.false_eq_true, if_false, if_true] at h
    rw [if_neg (by decide)] at h
    split at h
    · cases h
    · cases h
      simp [plainPath]

/-- A pair with such a path, in a usable collection. -/
structure PlainPair (rc : RirCfg R Pt G) (infos : List ArrInfo) (s m ty : String) (ns nm : Nat)
    (c : Coll Pt (IrMat R)) : Prop where
  usable : Usable rc infos c
  type : c.types s m = some ty
  path : c.paths s m = some (plainPath ty ns nm)
  src : ∃ a ∈ c.arrays, a.name = s ∧ a.num = ns
  mic : ∃ b ∈ c.arrays, b.name = m ∧ b.num = nm

theorem PlainPair.update {rc : RirCfg R Pt G} (hrc : rc.Lawful) (hd : rc.minDly = 0) (hlow : rc.highpass = false)
    {infos : List ArrInfo} {s m ty : String} (hty : ty = "none" ∨ ty = "direct") {ns nm : Nat}
    {c : Coll Pt (IrMat R)} (h : PlainPair rc infos s m ty ns nm c) {g : G} {n : Nat} {gc : G × Coll Pt (IrMat R)}
    (hu : Coll.update (createPath rc) (g, c) n = .ok gc) : PlainPair rc infos s m ty ns nm gc.2 := by
  obtain ⟨g', c', e, hus⟩ := h.usable.update hrc hd g n
  rw [e] at hu
  cases hu
  by_cases hdvd : c.freq ∣ n
  swap
  · have : Coll.update (createPath rc) (g, c) n = .ok (g, c) := C42_between h.usable.freq hdvd
    rw [this] at e
    cases e
    exact h
  obtain ⟨ps, r', -, -, h3, h4⟩ := update_spec h.usable.con hdvd e
  have harr : c'.arrays = c.arrays.map (Arr.update n) := by rw [h4]; rfl
  have hmem : ∀ {nm' : String} {k : Nat}, (∃ a ∈ c.arrays, a.name = nm' ∧ a.num = k) → ∃ a ∈ c'.arrays, a.name = nm' ∧ a.num = k := by
    rintro nm' k ⟨a, ha, e1, e2⟩
    exact ⟨a.update n, by rw [harr]; exact List.mem_map_of_mem ha, by rw [Arr.update_name, e1], by rw [Arr.update_num, e2]⟩
  refine ⟨hus, by rw [h4]; exact h.type, ?_, hmem h.src, hmem h.mic⟩
  change c'.paths s m = _
  by_cases hin : (s, m) ∈ ps
  · obtain ⟨a, ha, b, hb, ea, eb, t, g1, g2, x, e3, e4, e5⟩ := h3.new hin
    rw [h.type] at e3
    cases e3
    obtain ⟨a', ha', na, ka⟩ := h.src
    obtain ⟨b', hb', nb, kb⟩ := h.mic
    have hx := createPath_plain hlow hty e4
    have e6 : a' = a := h.usable.con.inj ha' ha (na.trans ea.symm)
    have e7 : b' = b := h.usable.con.inj hb' hb (nb.trans eb.symm)
    rw [e5, hx, ← ka, ← kb, e6, e7]
    rfl
  · rw [h3.old hin, h.path]

end

section
variable {K R G S P V : Type} [Field K] [LinearOrder K] [Field R]
  {ext : RoomExt K R G} {i : RoomInfo K} {freq : Nat} {as : List (Arr (K × K × K))} {os : List (PathOp R)} {t : String}

theorem RoomPlan.begun (h : RoomPlan ext i freq as os t) :
    (planned freq as os t).arrays = as ∧ (planned freq as os t).Consistent := by
  obtain ⟨c1, c2, c3, c4⟩ := addAll_arrays as (Coll.empty_consistent (Pt := K × K × K) (H := IrMat R) freq) h.kinds
    (by simpa [Coll.empty] using h.names)
  have hc := (Coll.addAll_spec as (Coll.empty_consistent (Pt := K × K × K) (H := IrMat R) freq) h.kinds).1
  rw [show (Coll.empty freq : Coll (K × K × K) (IrMat R)).arrays = [] from rfl, List.nil_append] at c1
  set c : Coll (K × K × K) (IrMat R) := (Coll.empty freq).addAll as with hcd
  obtain ⟨p1, ty1, k0⟩ := ops_frame os c
  obtain ⟨⟨ty2, d0⟩, d1⟩ := setDefault_spec t (os.foldl Coll.op c)
  have hpl : planned freq as os t = (os.foldl Coll.op c).setDefault t := rfl
  refine ⟨by rw [hpl, d0, k0]; exact c1, ?_⟩
  rw [hpl, d0, k0]
  exact ⟨hc.names, hc.kinds, hc.mics, hc.srcs, hc.frees⟩

theorem roomSetup_setupIr {g : G} {c : Coll (K × K × K) (IrMat R)} {par : K × Nat} {gc : G × Coll (K × K × K) (IrMat R)}
    (hs : roomSetup ext i g c = .ok (par, gc)) : c.setupIr (createPath (i.cfg ext par)) g = .ok gc := by
  unfold roomSetup at hs
  split at hs
  · cases hs
  · split at hs
    · cases hs
    · rename_i heq
      cases hs
      exact heq

theorem RoomPlan.arrays (h : RoomPlan ext i freq as os t) {g : G} {par : K × Nat} {gc : G × Coll (K × K × K) (IrMat R)}
    (hs : roomSetup ext i g (planned freq as os t) = .ok (par, gc)) : gc.2.arrays = as := by
  obtain ⟨b1, b2⟩ := h.begun
  obtain ⟨e, -, -⟩ := setupIr_spec b2.names (by rw [b1]; exact h.initial) (roomSetup_setupIr (gc := (gc.1, gc.2)) hs)
  rw [e]
  exact b1

theorem RoomPlan.plain (h : RoomPlan ext i freq as os t) (hlow : ¬ 0 < i.cutoff) {a b : Arr (K × K × K)} (ha : a ∈ as)
    (hb : b ∈ as) (hak : a.kind = some .free ∨ a.kind = some .ctrl) (hbk : b.kind = some .mic) {ty : String}
    (hp : userPaths a b os = []) (ht : ((userTypes a b os).getLast?).getD t = ty) (hty : ty = "none" ∨ ty = "direct")
    {g : G} {par : K × Nat} {gc : G × Coll (K × K × K) (IrMat R)}
    (hs : roomSetup ext i g (planned freq as os t) = .ok (par, gc)) (hu : Usable (i.cfg ext par) (infosOf as) gc.2) :
    PlainPair (i.cfg ext par) (infosOf as) a.name b.name ty a.num b.num gc.2 := by
  have harr := h.arrays hs
  obtain ⟨c1, c2, c3, c4⟩ := addAll_arrays as (Coll.empty_consistent (Pt := K × K × K) (H := IrMat R) freq) h.kinds
    (by simpa [Coll.empty] using h.names)
  have hc := (Coll.addAll_spec as (Coll.empty_consistent (Pt := K × K × K) (H := IrMat R) freq) h.kinds).1
  rw [show (Coll.empty freq : Coll (K × K × K) (IrMat R)).arrays = [] from rfl, List.nil_append] at c1
  have key := C40_user_paths hc (by rw [c1]; exact h.initial) os t (roomSetup_setupIr (gc := (gc.1, gc.2)) hs)
    (a := a) (b := b) (by rw [c1]; exact ha) (by rw [c1]; exact hb) hak hbk (by rw [c2]; rfl) (by rw [c3]; rfl)
    (h.channels a ha) (h.channels b hb)
  rw [hp] at key
  dsimp only [List.getLast?_nil] at key
  obtain ⟨ty', e1, e2, e3⟩ := key
  rw [ht] at e1
  subst e1
  obtain ⟨g1, g2, x, e4, e5⟩ := e3 (by rcases hty with rfl | rfl <;> decide)
  have hx := createPath_plain (show (i.cfg ext par).highpass = false from decide_eq_false hlow) hty e4
  exact ⟨hu, e2, by rw [e5, hx]; rfl, ⟨a, by rw [harr]; exact ha, rfl, rfl⟩, ⟨b, by rw [harr]; exact hb, rfl, rfl⟩⟩

/-- The response of the pair at any time. -/
theorem PlainPair.irAt {D O F : Type} (h : RoomPlan ext i freq as os t) (hlow : ¬ 0 < i.cutoff)
    {cfg : SimCfg R (IrMat R) F S (G × Coll (K × K × K) (IrMat R)) P D O} {par : K × Nat}
    (e1 : cfg.arrUpdate = Coll.update (createPath (i.cfg ext par))) (e2 : cfg.arrPath = Coll.path)
    {gc : G × Coll (K × K × K) (IrMat R)} {s m : ArrInfo} {ty : String} (hty : ty = "none" ∨ ty = "direct") {ns nm : Nat}
    (hp : PlainPair (i.cfg ext par) (infosOf as) s.name m.name ty ns nm gc.2) {k : Nat} {x : IrMat R}
    (hx : cfg.IrAt gc s m k x) : x = plainPath ty ns nm := by
  have hall : ∀ n gc', cfg.arrAfter gc n = .ok gc' → PlainPair (i.cfg ext par) (infosOf as) s.name m.name ty ns nm gc'.2 := by
    intro n
    induction n with
    | zero => intro gc' e; cases e; exact hp
    | succ n ih =>
      intro gc' e
      unfold SimCfg.arrAfter at e
      split at e
      · cases e
      · rename_i gc1 h1
        rw [e1] at e
        exact (ih gc1 h1).update (h.external par) rfl (decide_eq_false hlow) hty (g := gc1.1) e
  have hpath : ∀ {gc' : G × Coll (K × K × K) (IrMat R)}, PlainPair (i.cfg ext par) (infosOf as) s.name m.name ty ns nm gc'.2 →
      cfg.arrPath gc' s.name m.name = .ok x → x = plainPath ty ns nm := by
    intro gc' hg e
    rw [e2] at e
    unfold Coll.path at e
    rw [hg.path] at e
    cases e
    rfl
  cases k with
  | zero => exact hpath hp hx
  | succ n =>
    simp only [SimCfg.IrAt] at hx
    split at hx
    · obtain ⟨gc', g1, g2⟩ := hx
      exact hpath (hall _ _ g1) g2
    · exact hpath hp hx

/-! ### shapes -/

omit [Field K] [LinearOrder K] [Field R] in
theorem ops_none {s m : String} : ∀ (os : List (PathOp R)) (c : Coll (K × K × K) (IrMat R)), s ∉ c.srcs ∨ m ∉ c.mics →
    (os.foldl Coll.op c).paths s m = c.paths s m
  | [], _, _ => rfl
  | o :: os, c, h => by
    obtain ⟨p, ty, hf⟩ := c.op_frame o
    rw [List.foldl_cons, ops_none os (c.op o) (by rw [hf]; exact h)]
    cases o with
    | type s' m' t' =>
      unfold Coll.op Coll.setPathType
      dsimp only
      repeat (split <;> try rfl)
    | path x s' m' =>
      unfold Coll.op Coll.setPropPath
      dsimp only
      split
      · rfl
      · rename_i h1
        split
        · rfl
        · rename_i h2
          split
          · split
            · rfl
            · split
              · rfl
              · show set2 c.paths s' m' x s m = _
                unfold set2
                rw [if_neg]
                rintro ⟨rfl, rfl⟩
                rw [not_not] at h1 h2
                rcases h with h | h
                · exact h h1
                · exact h h2
          · rfl

theorem RoomPlan.fit (h : RoomPlan ext i freq as os t) {g : G} {par : K × Nat} {gc : G × Coll (K × K × K) (IrMat R)}
    (hs : roomSetup ext i g (planned freq as os t) = .ok (par, gc)) (hu : Usable (i.cfg ext par) (infosOf as) gc.2) :
    gc.2.PathsFit := by
  intro a ha b hb x hx
  by_cases hk : (a.kind = some .free ∨ a.kind = some .ctrl) ∧ b.kind = some .mic
  · obtain ⟨y, e1, e2, e3⟩ := hu.paths a ha b hb hk.1 hk.2
    rw [hx] at e1
    cases e1
    exact ⟨e2, e3⟩
  · exfalso
    have harr := h.arrays hs
    obtain ⟨b1, b2⟩ := h.begun
    obtain ⟨-, -, e⟩ := setupIr_spec b2.names (by rw [b1]; exact h.initial) (roomSetup_setupIr (gc := (gc.1, gc.2)) hs)
    have hno : a.name ∉ (planned freq as os t).srcs ∨ b.name ∉ (planned freq as os t).mics := by
      by_contra hc
      rw [not_or, not_not, not_not] at hc
      obtain ⟨a', ha', ka, na⟩ := b2.mem_srcs.1 hc.1
      obtain ⟨b', hb', kb, nb⟩ := b2.mem_mics.1 hc.2
      rw [harr, ← b1] at ha hb
      rw [b2.inj ha' ha na] at ka
      rw [b2.inj hb' hb nb] at kb
      exact hk ⟨ka, kb⟩
    rw [e.old (by
      intro hm
      have := Coll.mem_combos.1 (List.mem_filter.1 hm).1
      rcases hno with hn | hn
      · exact hn this.1
      · exact hn this.2)] at hx
    obtain ⟨c1, c2, c3, c4⟩ := addAll_arrays as (Coll.empty_consistent (Pt := K × K × K) (H := IrMat R) freq) h.kinds
      (by simpa [Coll.empty] using h.names)
    obtain ⟨p1, ty1, k0⟩ := ops_frame os ((Coll.empty freq : Coll (K × K × K) (IrMat R)).addAll as)
    obtain ⟨⟨ty2, d0⟩, -⟩ := setDefault_spec t (os.foldl Coll.op ((Coll.empty freq : Coll (K × K × K) (IrMat R)).addAll as))
    have hpl : planned freq as os t = (os.foldl Coll.op ((Coll.empty freq).addAll as)).setDefault t := rfl
    rw [hpl, d0, k0] at hno
    rw [hpl, d0] at hx
    have := ops_none (s := a.name) (m := b.name) os ((Coll.empty freq : Coll (K × K × K) (IrMat R)).addAll as) hno
    rw [this, c2] at hx
    cases hx

theorem RoomPlan.shape {D O : Type} (h : RoomPlan ext i freq as os t)
    {base : SimCfg R (IrMat R) (Fir R) S (G × Coll (K × K × K) (IrMat R)) P D O} {g : G} {par : K × Nat}
    {gc : G × Coll (K × K × K) (IrMat R)} (hs : roomSetup ext i g (planned freq as os t) = .ok (par, gc))
    (hu : Usable (i.cfg ext par) (infosOf as) gc.2) : (roomCfg base ext i par as).PathShape gc := by
  refine coll_shape (g0 := gc.1) (c0 := gc.2) (gen := createPath (i.cfg ext par)) hu.con hu.sized (h.fit hs hu) ?_ ?_ ?_ ?_
  · intro g a b t g' x e h1 h2
    have := createPath_shaped (fun _ => h.external par) h1 h2 e
    exact ⟨this.1, this.2.1⟩
  · intro n
    induction n with
    | zero => rfl
    | succ n ih =>
      unfold SimCfg.arrAfter Coll.after
      rw [ih]
      cases Coll.after (createPath (i.cfg ext par)) (gc.1, gc.2) n <;> rfl
  · intro x hx
    rw [h.arrays hs]
    exact mem_infosOf.1 hx
  · intro gc' s m x hx
    change Coll.path gc' s m = .ok x at hx
    unfold Coll.path at hx
    split at hx
    · cases hx
    · rename_i e
      cases hx
      exact e

end

section
variable {R : Type} [CommRing R]

theorem sum_map_zero' {α : Type} {l : List α} {f : α → R} (h : ∀ a ∈ l, f a = 0) : (l.map f).sum = 0 :=
  List.sum_eq_zero (by
    intro x hx
    obtain ⟨a, ha, rfl⟩ := List.mem_map.1 hx
    exact h a ha)

theorem sum_map_single {α : Type} : ∀ {l : List α} {f : α → R} {a : α}, l.Nodup → a ∈ l → (∀ b ∈ l, b ≠ a → f b = 0) →
    (l.map f).sum = f a
  | [], _, _, _, ha, _ => nomatch ha
  | b :: l, f, a, hnd, ha, h => by
    rw [List.nodup_cons] at hnd
    rw [List.map_cons, List.sum_cons]
    rcases List.mem_cons.1 ha with rfl | ha'
    · rw [sum_map_zero' fun c hc => h c (List.mem_cons_of_mem _ hc) (fun e => hnd.1 (e ▸ hc)), add_zero]
    · rw [h b List.mem_cons_self (fun e => hnd.1 (e ▸ ha')), zero_add]
      exact sum_map_single hnd.2 ha' fun c hc => h c (List.mem_cons_of_mem _ hc)

/-- One source directly, the others not at all. -/
theorem convSum_plain {sources : List ArrInfo} (hnd : sources.Nodup) {h : String → IrMat R} {u : String → Nat → Int → R}
    {s : ArrInfo} (hs : s ∈ sources) (ty : ArrInfo → String) (n : ArrInfo → Nat)
    (hh : ∀ a ∈ sources, ∃ k, h a.name = plainPath (ty a) (n a) k) (hd : ty s = "direct")
    (ho : ∀ a ∈ sources, a ≠ s → ty a = "none") {c : Nat} (hc : c < s.num) (t : Int) :
    convSum sources h u c t = u s.name c t := by
  unfold convSum
  rw [sum_map_single hnd hs]
  · obtain ⟨k, e⟩ := hh s hs
    rw [e]
    rw [sum_map_single List.nodup_range (List.mem_range.2 hc)]
    · simp [plainPath, hd]
    · intro b _ hb
      simp [plainPath, hb]
  · intro a ha hne
    obtain ⟨k, e⟩ := hh a ha
    rw [e]
    refine sum_map_zero' fun b _ => ?_
    simp [plainPath, ho a ha hne]

end
section
variable {R S A P V : Type} [Field R] [DecidableEq R]
  {cfg : SimCfg R (IrMat R) (Fir R) S A P (DData R P V) (DOut R V)} {K : P → Prop} {info : DiagInfo}

theorem exampleDiagnostics_fit {Pt : Type} {arrays : List (Arr Pt)} (hproc : cfg.proc.isSome) (htot : info.tot = cfg.tot)
    (hpos : 0 < cfg.tot) (hf : 0 < info.exportFreq) (hsm : info.smoothing ≠ 0) {nl ne nr : Nat}
    (hl : numOfArray arrays "loudspeaker" = .ok nl) (he : numOfArray arrays "error" = .ok ne)
    (hr : numOfArray arrays "ref" = .ok nr) (hev : (arrays.any fun a => a.name == "eval") = false)
    (hnl : 0 < nl) (hne : 0 < ne) (hnr : 0 < nr) (sl : cfg.dims "loudspeaker" = some nl) (se : cfg.dims "error" = some ne)
    (sr : cfg.dims "ref" = some nr) (sp : cfg.dims "noise~error" = some ne) (ss : cfg.dims "loudspeaker~error" = some ne)
    {get : P → Except PyErr V} (hget : ∀ p, K p → ∃ v, get p = .ok v) :
    ∃ ds, exampleDiagnostics info arrays nl ne get = .ok ds ∧ (ds.map Diag.name).Nodup ∧
      (∀ d ∈ ds, d.Fits cfg K) ∧ (∀ d ∈ ds, ∀ name ∈ d.data.reads, name ≠ "xf") ∧
      ∀ x ∈ [("sig_ls", "loudspeaker", nl), ("sig_error", "error", ne), ("sig_ref", "ref", nr), ("sig_primary_noise", "noise~error", ne),
        ("sig_secondary_noise", "loudspeaker~error", ne)],
        ∃ d ∈ ds, mkRecordSignal info x.1 x.2.1 none none x.2.2 none = .ok d := by
  obtain ⟨ex, hex⟩ : ∃ ex, exportCounter info none = .ok ex := by
    unfold exportCounter
    show ∃ ex, IxCounter.ofFreq info.exportFreq info.tot = .ok ex
    unfold IxCounter.ofFreq
    rw [if_neg (by omega)]
    exact ⟨_, rfl⟩
  have hex' : IxCounter.ofFreq info.exportFreq info.tot = .ok ex := hex
  have hex0 : ∀ e ∈ ex.left, 0 ≤ e := by
    rw [(ofFreq_left hex').2]
    intro e he
    obtain ⟨j, -, rfl⟩ := List.mem_map.1 he
    exact Int.natCast_nonneg _
  obtain ⟨sv, nv, hsv⟩ : ∃ sv nv, IvCounter.fromFrequency info.exportFreq info.tot false = .ok (sv, nv) := by
    unfold IvCounter.fromFrequency
    rw [if_neg (by omega)]
    exact ⟨_, _, rfl⟩
  obtain ⟨-, hsv', -⟩ := fromFrequency_eq hsv
  simp only [Bool.false_eq_true, if_false] at hsv'
  have hrep : ∀ n, List.replicate n (List.replicate info.tot (none : Option R)) = matOf n cfg.tot fun _ _ => none := by
    intro n
    rw [htot]
    simp [matOf, List.map_const']
  have hrows : ∀ {n : Nat}, 0 < n → List.range n ≠ [] := by
    intro n hn e
    rw [List.range_eq_nil] at e
    omega
  have hiv : Increasing 0 [(0, (info.tot : Int))] := ⟨le_refl _, by rw [htot]; exact Int.natCast_pos.2 hpos, trivial⟩
  have hle : ∀ q ∈ [((0 : Int), (info.tot : Int))], q.2 ≤ cfg.tot := by
    intro q hq
    rw [List.mem_singleton] at hq
    rw [hq, htot]
  have frec : ∀ {name sig : String} {n : Nat}, cfg.dims sig = some n → 0 < n →
      (⟨name, IvCounter.init [(0, (info.tot : Int))], ex, .recSignal sig none (List.replicate n (List.replicate info.tot none))⟩ :
        Diag (DData R P V)).Fits cfg K := by
    intro name sig n hd hn
    have := DData.Fits.recSignal (cfg := cfg) (K := K) (ivs := [(0, (info.tot : Int))]) (chan := none) (rows := List.range n) hd rfl (hrows hn)
    rw [List.length_range] at this
    exact ⟨_, rfl, hiv, hle, hex0, by rw [hrep]; exact this⟩
  have fpow : ∀ {name sig : String} {n : Nat}, cfg.dims sig = some n → 0 < n →
      (⟨name, IvCounter.init [(0, (info.tot : Int))], ex, .power sig none (List.replicate info.tot none)⟩ :
        Diag (DData R P V)).Fits cfg K := fun hd hn =>
    ⟨_, rfl, hiv, hle, hex0, by rw [htot]; exact .power (rows := List.range _) hd rfl (hrows hn)⟩
  have frat : ∀ {name na nb : String} {n m : Nat}, cfg.dims na = some n → 0 < n → cfg.dims nb = some m → 0 < m →
      (⟨name, IvCounter.init [(0, (info.tot : Int))], ex, .ratio na none nb none info.smoothing (List.replicate info.tot none)⟩ :
        Diag (DData R P V)).Fits cfg K := fun hd hn hd' hm =>
    ⟨_, rfl, hiv, hle, hex0, by rw [htot]; exact .ratio (ra := List.range _) (rb := List.range _) hd rfl (hrows hn) hd' rfl (hrows hm) hsm⟩
  have ffil : (⟨"secondary_paths", sv, ex, .instant get none⟩ : Diag (DData R P V)).Fits cfg K :=
    ⟨_, hsv', freqIvs_increasing _ _ _ hf (by omega), by
      intro q hq
      rw [freqIvs_one _ _ hf] at hq
      obtain ⟨j, hj, rfl⟩ := List.mem_map.1 hq
      have h6 : (j + 1) * info.exportFreq ≤ info.tot :=
        le_trans (Nat.mul_le_mul_right _ (List.mem_range.1 hj)) (Nat.div_mul_le_self _ _)
      rw [← htot]
      exact Int.ofNat_le.2 h6, hex0, .instant hproc hget⟩
  refine ⟨_, by
    unfold exampleDiagnostics ancDiagnostics mkSignalPowerRatio mkSignalPower mkRecordSignal mkRecordFilter signalSaveAt
    simp only [hex, hl, he, hr, hev, bind, Except.bind, Option.getD_none, hsv, Except.map, IdxSel.counter, hex',
      Option.any_none, Bool.false_eq_true, if_false]
    rfl, ?_, ?_, ?_, ?_⟩
  · simp
  · intro d hd
    simp only [List.cons_append, List.nil_append, List.mem_cons, List.not_mem_nil, or_false] at hd
    rcases hd with rfl | rfl | rfl | rfl | rfl | rfl | rfl | rfl | rfl | rfl | rfl | rfl | rfl | rfl
    · exact frat se hne sp hne
    · exact fpow sl hnl
    · exact fpow se hne
    · exact fpow sp hne
    · exact fpow ss hne
    · exact fpow sr hnr
    · exact frec sl hnl
    · exact frec se hne
    · exact frec sr hnr
    · exact frec sp hne
    · exact frec ss hne
    · exact ffil
    · exact frec sl hnl
    · exact frec se hne
  · intro d hd
    simp only [List.cons_append, List.nil_append, List.mem_cons, List.not_mem_nil, or_false] at hd
    rcases hd with rfl | rfl | rfl | rfl | rfl | rfl | rfl | rfl | rfl | rfl | rfl | rfl | rfl | rfl <;> simp [DData.reads]
  · intro x hx
    refine ⟨⟨x.1, IvCounter.init [(0, (info.tot : Int))], ex,
      .recSignal x.2.1 none (List.replicate x.2.2 (List.replicate info.tot none))⟩, ?_, ?_⟩
    · simp only [List.mem_cons, List.not_mem_nil, or_false] at hx
      rcases hx with rfl | rfl | rfl | rfl | rfl <;> simp
    · unfold mkRecordSignal signalSaveAt
      simp only [hex, hex', IdxSel.counter, Option.any_none, Option.getD_none, bind, Except.bind, Except.map, Bool.false_eq_true, if_false]

end
end Verif
