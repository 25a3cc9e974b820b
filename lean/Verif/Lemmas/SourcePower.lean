/-
Lemmas about sources with a power.
-/
import Verif.Model.SourcePower
import Verif.Props.Sources
namespace Verif

theorem isStream_rel {σ τ R : Type} {get : σ → Nat → Except PyErr (σ × List (List R))}
    {get' : τ → Nat → Except PyErr (τ × List (List R))} {s0 : σ} {t0 : τ} {ch : Nat} {stream : Nat → Nat → R}
    (Rel : σ → τ → Prop) (h0 : Rel s0 t0)
    (hstep : ∀ s t n s' b, Rel s t → get s n = .ok (s', b) → ∃ t', get' t n = .ok (t', b) ∧ Rel s' t')
    (h : IsStream get s0 ch stream) : IsStream get' t0 ch stream := by
  intro ns
  obtain ⟨s', hs⟩ := h ns
  have key : ∀ ns s t s' bs, Rel s t → runRequests get s ns = .ok (s', bs) →
      ∃ t', runRequests get' t ns = .ok (t', bs) := by
    intro ns
    induction ns with
    | nil =>
      intro s t s' bs _ hr
      simp only [runRequests, Except.ok.injEq, Prod.mk.injEq] at hr
      exact ⟨t, by rw [runRequests, hr.2]⟩
    | cons n ns ih =>
      intro s t s' bs hrel hr
      simp only [runRequests] at hr
      split at hr
      · cases hr
      · rename_i s1 b heq
        split at hr
        · cases hr
        · rename_i s2 bs2 heq2
          obtain ⟨t1, ht1, hrel1⟩ := hstep s t n s1 b hrel heq
          obtain ⟨t2, ht2⟩ := ih s1 t1 s2 bs2 hrel1 heq2
          simp only [Except.ok.injEq, Prod.mk.injEq] at hr
          exact ⟨t2, by simp only [runRequests, ht1, ht2, hr.2]⟩
  exact key ns s0 t0 s' _ h0 hs

theorem isStream_congr {σ R : Type} {get : σ → Nat → Except PyErr (σ × List (List R))} {s0 : σ} {ch : Nat}
    {f g : Nat → Nat → R} (hfg : ∀ c k : Nat, c < ch → f c k = g c k) (h : IsStream get s0 ch f) :
    IsStream get s0 ch g := by
  have e : ∀ off n : Nat, blockOf f ch off n = blockOf g ch off n := fun off n =>
    List.map_congr_left fun c hc => List.map_congr_left fun j _ => hfg c _ (List.mem_range.1 hc)
  have e2 : ∀ (ns : List Nat) (off : Nat), blocksOf f ch off ns = blocksOf g ch off ns := by
    intro ns
    induction ns with
    | nil => intro _; rfl
    | cons n ns ih => intro off; rw [blocksOf, blocksOf, e, ih]
  intro ns
  obtain ⟨s', hs⟩ := h ns
  exact ⟨s', by rw [hs, e2]⟩

/-! ### White noise -/

theorem whiteObj_stream (ch : Nat) (power : PowerArg) (std : Nat → ℝ) (hs : whiteStd ch power = some std) (z : Nat → ℝ)
    (p : Nat) :
    IsStream WhiteObj.get ⟨ch, power, ⟨z, p⟩⟩ ch (fun c k => std c * z (p + (k * ch + c))) := by
  refine isStream_rel (fun (s : WhiteSt ℝ) (o : WhiteObj) => s.ch = ch ∧ s.std = std ∧ o.ch = ch ∧ o.power = power ∧
    o.rng = s.rng) ⟨rfl, rfl, rfl, rfl, rfl⟩ ?_ (C32_white_noise ch std z p)
  rintro ⟨sc, ss, sr⟩ ⟨oc, op, orng⟩ n s' b ⟨h1, h2, h3, h4, h5⟩ hg
  dsimp only at h1 h2 h3 h4 h5
  subst h1; subst h2; subst h3; subst h4; subst h5
  refine ⟨⟨oc, op, s'.rng⟩, ?_, ?_⟩
  · simp only [WhiteObj.get, hs, hg]
  · simp only [WhiteSt.get] at hg
    cases hg
    exact ⟨rfl, rfl, rfl, rfl, rfl⟩

/-! ### Sines -/

theorem sineObj_stream (ch : Nat) (p freq sr : ℝ) (u : Nat → ℝ) :
    IsStream SineObj.get (SineObj.create ch (.num p) freq sr u) ch (fun c k => Real.sqrt (2 * p) *
      Real.cos (2 * Real.pi * freq / sr * k + ((List.range ch).map fun c => uniform 0 (2 * Real.pi) (u c)).getD c 0)) := by
  have h := C34_sine p freq sr ((List.range ch).map fun c => uniform 0 (2 * Real.pi) (u c))
  rw [List.length_map, List.length_range] at h
  refine isStream_rel (fun (s : SineSt) (o : SineObj) => s.amplitude = Real.sqrt (2 * p) ∧ o.power = .num p ∧
    o.pps = s.pps ∧ o.phase = s.phase) ⟨rfl, rfl, rfl, rfl⟩ ?_ h
  rintro ⟨sa, sp, sph⟩ ⟨ow, op, oph⟩ n s' b ⟨h1, h2, h3, h4⟩ hg
  dsimp only at h1 h2 h3 h4
  subst h1; subst h2; subst h3; subst h4
  simp only [SineSt.get] at hg
  cases hg
  refine ⟨⟨.num p, op, oph.map fun p => realMod (p + n * op) (2 * Real.pi)⟩, ?_, rfl, rfl, rfl, rfl⟩
  simp only [SineObj.get, scalePower, List.map_map]
  congr 3
  funext x
  simp [Function.comp]

theorem getD_range_map {α : Type} (ch : Nat) (f : Nat → α) (d : α) {c : Nat} (hc : c < ch) :
    ((List.range ch).map f).getD c d = f c := by
  rw [List.getD_eq_getElem?_getD, List.getElem?_map, List.getElem?_range hc]
  rfl

theorem zipIdx_map_ofFn {α β : Type} (l : List α) (f : α × Nat → β) :
    l.zipIdx.map f = List.ofFn fun i : Fin l.length => f (l[i], i) := by
  apply List.ext_getElem
  · simp
  · intro i h1 h2
    simp

end Verif
