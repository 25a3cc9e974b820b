/-
Diagnostics that save one interval and export once at its end.
-/
import Verif.Lemmas.Recording
namespace Verif

section
variable {R IR F S A P V : Type} [Field R] [DecidableEq R]

theorem Chain.prefix_eq {a b : Int} {ps qs : List (Int × Int)} (h : Chain a ps b) (h0 : 0 ≤ a)
    (hab : a < b) (hq : qs <+: ps) (hle : b ≤ lastEnd 0 qs) : qs = ps := by
  obtain ⟨rest, hr⟩ := hq
  cases rest with
  | nil => simpa using hr
  | cons r rest =>
    exfalso
    have href : Refine [(a, b)] ps := by
      have := Refine.cons h Refine.nil
      rwa [List.append_nil] at this
    have hinc : Increasing 0 ps := href.increasing ⟨h0, by simpa using hab, trivial⟩
    have hlt : ∀ (l : List (Int × Int)) (lo : Int), Increasing lo (l ++ r :: rest) → lastEnd lo l ≤ r.1 ∧ r.1 < r.2 := by
      intro l
      induction l with
      | nil => intro lo hl; exact ⟨hl.1, hl.2.1⟩
      | cons q l ih => intro lo hl; exact ih q.2 hl.2.2
    have h1 := hlt qs 0 (by rw [hr]; exact hinc)
    have h2 := h.ends_le r (by rw [← hr]; simp)
    omega

variable {cfg : SimCfg R IR F S A P (DData R P V) (DOut R V)} {lp : ProcView R P}
  {srcs : String → S} {arr : A} {proc : P} {f0 : F} {ds0 : List (Diag (DData R P V))}
  {st0 fin : SimSt R F S A P (DData R P V) (DOut R V)}

/-- A diagnostic that saves `[a, b)` and exports at `b`: the interval is saved in
consecutive pieces, and what is exported is made of the final data. -/
theorem DiagRun.once_spec {ok : String → Prop} {T : Tape R} {pf : Nat → Option P}
    (h : DiagRun cfg ds0 st0 fin ok T pf)
    {d : Diag (DData R P V)} (hmem : d ∈ ds0) {a b : Int} (hsv : d.saveAt = IvCounter.init [(a, b)])
    (hex : d.exportAt = IxCounter.init [b]) (ha : 0 ≤ a) (hab : a < b) (hb : b ≤ cfg.tot)
    (hok : ∀ name ∈ d.data.reads, ok name) :
    ∃ ps, Chain a ps b ∧ ∃ d' ∈ fin.diags, d'.name = d.name ∧
        savePieces (diagOps R P V) cfg.dims T pf ps d.data = .ok d'.data ∧
        (∀ ev ∈ evOf d.name fin.log, ev.time = b ∧ DData.output d'.data b = .ok ev.out) ∧
        (cfg.plotNone = false → (evOf d.name fin.log).length = 1) := by
  obtain ⟨d', hd', hname, ps, xs, href, hsave, hleft, htimes, hout, hnext⟩ :=
    h.spec _ hmem hok [(a, b)] hsv ⟨ha, hab, trivial⟩ (by simpa using hb)
  have hchain : Chain a ps b := by
    cases href with
    | cons hc hr => cases hr; simpa using hc
  rw [hex, IxCounter.left_init] at hleft
  refine ⟨ps, hchain, d', hd', hname, hsave, ?_, ?_⟩
  · intro ev hev
    have hx : ev.time ∈ xs := by rw [← htimes]; exact List.mem_map_of_mem hev
    have het : ev.time = b := by
      have : ev.time ∈ [b] := by rw [hleft]; simp [hx]
      simpa using this
    refine ⟨het, ?_⟩
    obtain ⟨qs, hqs, dd, hsq, ho, hle, _⟩ := hout ev hev
    rw [het] at ho hle
    have := hchain.prefix_eq ha hab hqs hle
    subst this
    rw [hsave] at hsq
    rw [Except.ok.inj hsq]
    exact ho
  · intro hp
    have : (evOf d.name fin.log).length = xs.length := by rw [← htimes, List.length_map]
    rw [this]
    cases hx : d'.exportAt.left with
    | nil => rw [hx, List.append_nil] at hleft; rw [← hleft]; rfl
    | cons x rest =>
      have := hnext hp x rest hx
      rw [hx] at hleft
      have hm : x ∈ [b] := by rw [hleft]; simp
      have hxb : x = b := by simpa using hm
      have h2 : lastEnd 0 [(a, b)] = b := rfl
      omega

/-! ### SignalPowerSpectrum -/

theorem spectrum_save (dims : String → Option Nat) (T : Tape R) (pr : Option P)
    (name : String) (num : Nat) (hd : dims name = some num) (chan : Option (List Int))
    (rows : List Nat) (hr : chanRows num chan = some rows) (w : Mat (Option R) → V)
    (len k : Nat) (f : Nat → Nat → Option R) (s e : Int) (hse : s < e) (he : (k : Int) + (e - s) ≤ len) :
    DData.save (.spectrum name chan w (matOf rows.length len f) k : DData R P V) pr
        (cut dims T (s - 1) (e - s).toNat) (0, e - s) (s, e) =
      .ok (.spectrum name chan w (matOf rows.length len fun j t =>
        if k ≤ t ∧ t < k + (e - s).toNat then some (T name (rows.getD j 0) (s + (t - k : Nat) - 1)) else f j t)
        (k + (e - s).toNat)) := by
  let : Zero (Option R) := ⟨none⟩
  obtain ⟨n, hn⟩ := Int.eq_ofNat_of_zero_le (show 0 ≤ e - s by omega)
  have e1 : e - s = (n : Int) := hn
  unfold DData.save
  simp only
  rw [e1, Int.toNat_natCast, sigSelect_cut dims T (s - 1) n name num hd chan rows hr]
  simp only [sub_zero]
  rw [pyAssign2_matOf rows.length len k n f (by omega)]
  have hb := broadcastMat_exact rows n (fun c k => some (T name c (s - 1 + k)))
  have hm : (List.map (fun r => List.map some r)
      (List.map (fun c => List.map (fun (k : Nat) => T name c (s - 1 + k)) (List.range n)) rows)) =
      rows.map fun c => (List.range n).map fun (k : Nat) => some (T name c (s - 1 + k)) := by
    simp [Function.comp_def]
  rw [hm, hb]
  simp only [Option.map_some]
  congr 2
  · apply matOf_congr
    intro c t hc ht
    by_cases hin : k ≤ t ∧ t < k + n
    · rw [if_pos hin, if_pos hin]
      have h1 : t - k < n := by omega
      have h2 : (s - 1 + ((t - k : Nat) : Int)) = s + (t - k : Nat) - 1 := by omega
      simp [matVal, List.getD_eq_getElem?_getD, hc, h1, h2]
    · rw [if_neg hin, if_neg hin]

theorem spectrum_pieces (dims : String → Option Nat) (T : Tape R) (pf : Nat → Option P)
    (name : String) (num : Nat) (hd : dims name = some num) (chan : Option (List Int))
    (rows : List Nat) (hr : chanRows num chan = some rows) (w : Mat (Option R) → V)
    (len : Nat) : ∀ (ps : List (Int × Int)) (a b : Int) (k : Nat) (f : Nat → Nat → Option R),
      Chain a ps b → (k : Int) + (b - a) = len →
      ∃ k', savePieces (diagOps R P V) dims T pf ps (.spectrum name chan w (matOf rows.length len f) k) =
        .ok (.spectrum name chan w (matOf rows.length len fun j t =>
          if k ≤ t then some (T name (rows.getD j 0) (a + (t - k : Nat) - 1)) else f j t) k')
  | [], a, b, k, f, hc, hk => by
    cases hc
    refine ⟨k, ?_⟩
    show Except.ok _ = _
    congr 2
    apply matOf_congr
    intro c t _ ht
    rw [if_neg (by omega)]
  | q :: ps, a, b, k, f, hc, hk => by
    obtain ⟨h1, h2, h3⟩ := hc
    subst h1
    have hle := h3.le
    obtain ⟨k', ih⟩ := spectrum_pieces dims T pf name num hd chan rows hr w len ps q.2 b (k + (q.2 - q.1).toNat)
      (fun j t => if k ≤ t ∧ t < k + (q.2 - q.1).toNat then
        some (T name (rows.getD j 0) (q.1 + (t - k : Nat) - 1)) else f j t) h3 (by push_cast; omega)
    refine ⟨k', ?_⟩
    unfold savePieces
    rw [List.foldlM_cons]
    have hs : (diagOps R P V).save = DData.save := rfl
    rw [hs, spectrum_save dims T _ name num hd chan rows hr w len k f q.1 q.2 h2 (by omega)]
    show savePieces (diagOps R P V) dims T pf ps _ = _
    rw [ih]
    congr 2
    apply matOf_congr
    intro c t _ ht
    by_cases h4 : k + (q.2 - q.1).toNat ≤ t
    · rw [if_pos h4, if_pos (by omega)]
      rw [show q.2 + ((t - (k + (q.2 - q.1).toNat) : Nat) : Int) - 1 = q.1 + ((t - k : Nat) : Int) - 1 by omega]
    · rw [if_neg h4]
      by_cases h5 : k ≤ t
      · rw [if_pos ⟨h5, by omega⟩, if_pos h5]
      · rw [if_neg (by omega), if_neg h5]

/-! ### SignalSummary -/

/-- Samples `s, ..., s + n - 1` (time indices) of the first `num` channels of a signal. -/
def window (T : Tape R) (name : String) (num : Nat) (s : Int) (n : Nat) : Mat R :=
  matOf num n fun c k => T name c (s - 1 + k)

theorem summary_save (dims : String → Option Nat) (T : Tape R) (pr : Option P)
    (name : String) (num : Nat) (hd : dims name = some num) (func : Option (Mat R → Except PyErr R))
    (q : Nat) (mean : R) (s e : Int) (hse : s < e) :
    DData.save (.summary name func q mean : DData R P V) pr
        (cut dims T (s - 1) (e - s).toNat) (0, e - s) (s, e) =
      match summaryOf func (window T name num s (e - s).toNat) with
      | .error x => .error x
      | .ok y => if q = 0 then .error .zeroDivision else .ok (.summary name func q (mean + y / (q : R))) := by
  have hn : ((e - s).toNat : Int) = e - s := by omega
  have hsel := sigSelect_cut dims T (s - 1) (e - s).toNat name num hd none (List.range num) rfl
  rw [hn] at hsel
  unfold DData.save
  simp only
  rw [hsel]
  rfl

theorem summary_pieces (dims : String → Option Nat) (T : Tape R) (pf : Nat → Option P)
    (name : String) (num : Nat) (hd : dims name = some num) (func : Option (Mat R → Except PyErr R))
    (q : Nat) : ∀ (ps : List (Int × Int)) (a b : Int) (mean : R) (dd : DData R P V), Chain a ps b →
      savePieces (diagOps R P V) dims T pf ps (.summary name func q mean) = .ok dd →
      ∃ ys, List.Forall₂ (fun (p : Int × Int) y =>
          summaryOf func (window T name num p.1 (p.2 - p.1).toNat) = .ok y) ps ys ∧
        dd = .summary name func q (mean + ys.sum / (q : R))
  | [], a, b, mean, dd, hc, h => by
    refine ⟨[], .nil, ?_⟩
    have e : (DData.summary name func q mean : DData R P V) = dd := Except.ok.inj h
    rw [← e]
    simp
  | p :: ps, a, b, mean, dd, hc, h => by
    obtain ⟨h1, h2, h3⟩ := hc
    unfold savePieces at h
    rw [List.foldlM_cons] at h
    have hs : (diagOps R P V).save = DData.save := rfl
    rw [hs, summary_save dims T _ name num hd func q mean p.1 p.2 h2] at h
    cases hy : summaryOf func (window T name num p.1 (p.2 - p.1).toNat) with
    | error x => rw [hy] at h; cases h
    | ok y =>
      rw [hy] at h
      simp only at h
      by_cases hq : q = 0
      · rw [if_pos hq] at h; cases h
      · rw [if_neg hq] at h
        obtain ⟨ys, hys, hdd⟩ := summary_pieces dims T pf name num hd func q ps p.2 b _ dd h3 h
        refine ⟨y :: ys, .cons hy hys, ?_⟩
        rw [hdd, List.sum_cons, add_div, add_assoc]

end
end Verif
