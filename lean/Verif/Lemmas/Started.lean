import Verif.Lemmas.Mic

namespace Verif
section
variable {R IR F S A P V : Type} [Field R] [DecidableEq R]
  {cfg : SimCfg R IR F S A P (DData R P V) (DOut R V)} {lp : ProcView R P}
  {srcs : String → S} {arr : A} {proc : P} {f0 : F} {ds0 : List (Diag (DData R P V))}
  {st0 : SimSt R F S A P (DData R P V) (DOut R V)}

theorem Started.local (h : Started cfg lp srcs arr proc f0 ds0 st0) : cfg.diag.Local cfg.dims := by
  rw [h.diag]; exact diagOps_local _

theorem Started.posB (h : Started cfg lp srcs arr proc f0 ds0 st0) : 1 ≤ cfg.B := by
  have := h.sizes.buffer; omega

theorem Started.nm (h : Started cfg lp srcs arr proc f0 ds0 st0) : Names cfg :=
  names_of cfg (init_nodup cfg h.init)

theorem Started.start (h : Started cfg lp srcs arr proc f0 ds0 st0) :
    ∃ e0, cfg.tInit srcs arr proc f0 = .ok e0 ∧
      st0.eng = conc cfg.dims (-(cfg.B : Int)) (cfg.B + cfg.C) e0 := by
  have hi := h.init
  rw [init_conc cfg h.posB (init_nodup cfg hi)] at hi
  cases he : cfg.tInit srcs arr proc f0 with
  | error x => rw [he] at hi; cases hi
  | ok e0 =>
    rw [he] at hi
    simp only [Except.map, Except.ok.injEq] at hi
    subst hi
    exact ⟨e0, rfl, rfl⟩

/-- The tape behind a running simulation. -/
theorem Started.tape (h : Started cfg lp srcs arr proc f0 ds0 st0) {k : Nat}
    {st : SimSt R F S A P (DData R P V) (DOut R V)} (hk : cfg.steps k st0 = .ok st) :
    ∃ e0 te, cfg.tInit srcs arr proc f0 = .ok e0 ∧
      st0.eng = conc cfg.dims (-(cfg.B : Int)) (cfg.B + cfg.C) e0 ∧ cfg.tSteps lp k e0 = .ok te ∧
      st.eng.proc = te.proc ∧
      ∀ t ≤ k, ∀ name c v, cfg.Produced st0 name c t v ↔
        ∃ num, cfg.dims name = some num ∧ c < num ∧ te.sig name c ((t : Int) - 1) = v := by
  obtain ⟨e0, he, h0⟩ := h.start
  obtain ⟨e0', he', te, off, r, hI⟩ := call_state cfg h.sizes h.local h.names h.init hk
  rw [he] at he'
  cases he'
  refine ⟨e0, te, he, h0, hI.tape, by rw [hI.eng]; rfl, ?_⟩
  intro t ht name c v
  exact produced_iff cfg lp h.sizes h.local h.names h.init he hk hI.tape ht

theorem Started.buffer (h : Started cfg lp srcs arr proc f0 ds0 st0)
    {e0 : Eng (Tape R) F S A P} (h0 : st0.eng = conc cfg.dims (-(cfg.B : Int)) (cfg.B + cfg.C) e0)
    {name : String} {num : Nat} (hd : cfg.dims name = some num) {c i : Nat} (hc : c < num)
    (hi : i < cfg.B) (v : R) : st0.eng.sig.At name c i v ↔ e0.sig name c ((i : Int) - cfg.B) = v := by
  rw [h0]
  show (cut _ _ _ _).At _ _ _ _ ↔ _
  rw [cut_at]
  have e1 : -(cfg.B : Int) + i = (i : Int) - cfg.B := by omega
  rw [e1]
  constructor
  · rintro ⟨_, _, _, _, a⟩; exact a
  · intro a; exact ⟨num, hd, hc, by omega, a⟩

/-- What the filters see, on the tape. -/
theorem Started.emitted (h : Started cfg lp srcs arr proc f0 ds0 st0) {k : Nat}
    {e0 te : Eng (Tape R) F S A P}
    (h0 : st0.eng = conc cfg.dims (-(cfg.B : Int)) (cfg.B + cfg.C) e0)
    (hte : cfg.tSteps lp k e0 = .ok te)
    (hprod : ∀ t ≤ k, ∀ name c v, cfg.Produced st0 name c t v ↔
        ∃ num, cfg.dims name = some num ∧ c < num ∧ te.sig name c ((t : Int) - 1) = v)
    {name : String} {num : Nat} (hd : cfg.dims name = some num) {c : Nat} (hc : c < num) {t : Int}
    (ht : t ≤ k) :
    cfg.Emitted st0 name c t (if -(cfg.prepNum : Int) < t then te.sig name c (t - 1) else 0) := by
  unfold SimCfg.Emitted
  have hB := h.posB
  split
  · rename_i h1
    rw [if_pos (by unfold SimCfg.prepNum; split <;> omega), hprod t.toNat (by omega)]
    exact ⟨num, hd, hc, by rw [Int.toNat_of_nonneg h1]⟩
  · rename_i h1
    split
    · rename_i h2
      have hpn : cfg.prepNum = cfg.B := by unfold SimCfg.prepNum; rw [if_pos h2.1]
      rw [hpn, if_pos h2.2, h.buffer h0 hd hc (by omega)]
      have hp := tSteps_past cfg lp (n := 0) (e0 := e0) (e := e0) rfl k (e' := te)
        (by rw [Nat.zero_add]; exact hte) name c (t - 1) (by simp; omega)
      rw [hp]
      exact congrArg (e0.sig name c) (by omega)
    · rename_i h2
      rw [if_neg]
      unfold SimCfg.prepNum
      split
      · rename_i hw
        intro h3
        exact h2 ⟨hw, h3⟩
      · omega

end

section
variable {R S A P D O : Type} [Semiring R] (cfg : SimCfg R (IrMat R) (Fir R) S A P D O)

/-- The microphone history written during preparation, as a convolution. -/
theorem prep_fir (hN : Names cfg) (hfilt : cfg.filt = firOps R)
    (hpos : ∀ a ∈ cfg.arrays, 0 < a.num) {arr : A} (hsh : cfg.PathShape arr) (hB : 1 ≤ cfg.B) {m : ArrInfo}
    (hm : m ∈ micsOf cfg.arrays)
    {srcs : String → S} {proc : P} {f0 : Fir R}
    {e0 : Eng (Tape R) (Fir R) S A P} (hi : cfg.tInit srcs arr proc f0 = .ok e0) :
    ∃ h : String → IrMat R,
      (∀ s ∈ sourcesOf cfg.arrays, cfg.arrPath arr s.name m.name = .ok (h s.name) ∧
        (h s.name).numIn = s.num) ∧
      ∀ (c i : Nat), c < m.num → i < cfg.B → e0.sig m.name c ((i : Int) - cfg.B) =
        ((sourcesOf cfg.arrays).map fun s => firOut (h s.name)
          ((List.range (if cfg.warm then i + 1 else 1)).map fun d : Nat => colAt e0.sig s
            ((if cfg.warm then (i : Int) - cfg.B else -1) - d)) c).sum := by
  obtain ⟨fs, e1, W, g1, g2, g3⟩ := tInit_parts cfg hN hi
  have hnum : 1 ≤ cfg.prepNum := by unfold SimCfg.prepNum; split <;> omega
  have hI := firInv_init cfg hN hfilt hpos hi
  have hall : ∀ s ∈ sourcesOf cfg.arrays, (e0.filts s.name m.name).mat.numIn = s.num ∧
      ∀ c i : Nat, c < m.num → i < cfg.B → matVal (W s.name m.name) c i = firOut (e0.filts s.name m.name).mat
          ((List.range (if cfg.warm then i + 1 else 1)).map fun d : Nat => colAt e0.sig s
            ((if cfg.warm then (i : Int) - cfg.B else -1) - d)) c := by
    intro s hs
    have hp := (mem_combosOf (p := (s, m))).2 ⟨hs, hm⟩
    obtain ⟨ir, c1, c2⟩ := createFilters_spec cfg hN g1 (s, m) hp
    obtain ⟨y, q1, q2, q3⟩ := g3.out (s, m) hp
    rw [g2.filts] at q1
    simp only at q1 c1 c2
    rw [c2, hfilt] at q1
    have hsp := hpos _ (mem_sourcesOf hs).1
    obtain ⟨a1, a2, _, _⟩ := fir_process hsp q1
    obtain ⟨b1, b2⟩ := fir_out (p := (s, m)) hsp hnum
      (hsh 0 _ rfl _ _ _ (mem_sourcesOf hs).1 (mem_micsOf hm).1 c1) q1
    obtain ⟨n1, n2⟩ := src_ne hN hs
    refine ⟨by rw [a2]; exact a1.symm, ?_⟩
    intro c i hc hi'
    have hcol : ∀ t : Int, (List.range s.num).map (fun c => e1.sig s.name c t) = colAt e0.sig s t := by
      intro t
      unfold colAt
      refine List.map_congr_left fun j _ => ?_
      rw [g3.old s.name j _ (fun hc => .inl (n1 hc)) (.inr (.inr n2))]
    by_cases hw : cfg.warm = true
    · have hpn : cfg.prepNum = cfg.B := by unfold SimCfg.prepNum; rw [if_pos hw]
      rw [hpn] at b1
      rw [b1, broadcastMat_self] at q2
      rw [if_pos hw, if_pos hw]
      rw [show W s.name m.name = _ from (Option.some.inj q2).symm, matVal_matOf _ _ _ hc hi']
      show firOut _ (_ ++ []) _ = _
      rw [List.append_nil, reverse_map_range]
      congr 1
      refine List.map_congr_left fun d hd => ?_
      have hd' : d < i + 1 := by simpa using hd
      rw [hcol]
      congr 1
      omega
    · have hpn : cfg.prepNum = 1 := by unfold SimCfg.prepNum; rw [if_neg hw]
      rw [if_neg hw, if_neg hw]
      rw [hpn] at b1
      have hrow : ∀ k < cfg.B, matVal (W s.name m.name) c k = matVal y c 0 := by
        intro k hk
        have q2' := q2
        unfold broadcastMat broadcastChan at q2'
        rw [if_pos (by rw [b1]; simp [matOf])] at q2'
        simp only [Option.bind_some] at q2'
        rcases mapM_some_getD q2' c with ⟨a, _⟩ | ⟨r, b, r1, r2, r3⟩
        · rw [b1] at a
          simp [matOf] at a
          omega
        · have hr : r.length = 1 := by
            have hmem := List.mem_of_getElem? r1
            rw [b1] at hmem
            obtain ⟨_, _, rfl⟩ := List.mem_map.1 hmem
            simp
          have eW : matVal (W s.name m.name) c k = b.getD k 0 := by
            unfold matVal; rw [List.getD_eq_getElem?_getD (l := W s.name m.name), r2]; rfl
          have ey : matVal y c 0 = r.getD 0 0 := by
            unfold matVal; rw [List.getD_eq_getElem?_getD (l := y), r1]; rfl
          rw [eW, ey]
          unfold broadcastRow at r3
          match r, hr with
          | [x], _ =>
            simp only [List.length_singleton] at r3
            split at r3
            · cases r3
              obtain rfl : k = 0 := by omega
              rfl
            · cases r3
              simp [hk]
      rw [hrow i hi', b1, matVal_matOf _ _ _ hc (by omega)]
      show firOut _ (_ ++ []) _ = _
      rw [List.append_nil, reverse_map_range]
      congr 1
      refine List.map_congr_left fun d hd => ?_
      have hd' : d < 1 := by simpa using hd
      rw [hcol]
      congr 1
      omega
  refine ⟨fun s => (e0.filts s m.name).mat, fun s hs =>
      ⟨hI.mat (s, m) (mem_combosOf.2 ⟨hs, hm⟩), (hall s hs).1⟩, ?_⟩
  intro c i hc hi'
  rw [prep_mic cfg hN hm g2 g3 c hi']
  congr 1
  exact List.map_congr_left fun s hs => (hall s hs).2 c i hc hi'

end
end Verif
