/-
The global state matters for a run only through what the path generation reads of it.
-/
import Verif.Lemmas.Shared
namespace Verif

section
variable {R IR F S A C P D O : Type} [Zero R] [Add R]

/-- If an invariant of the array state is preserved by the update steps and the visible
part after an update is determined by the visible part before, then the whole run is. -/
theorem run_visible (cfg : SimCfg R IR F S A P D O) (v : A → C) (path : C → String → String → Except PyErr IR)
    (hp : ∀ a s m, cfg.arrPath a s m = path (v a) s m)
    (I : A → Prop) (hI : ∀ a n a', I a → cfg.arrUpdate a n = .ok a' → I a')
    (hd : ∀ a b n, I a → I b → v a = v b → (cfg.arrUpdate a n).map v = (cfg.arrUpdate b n).map v)
    (srcs : String → S) (proc : P) (f0 : F) (diags : List (Diag D)) (a : A) (ha : I a) :
    (∀ fin, cfg.run srcs a proc f0 diags = .ok fin → I fin.eng.arr) ∧
    ∀ b, I b → v a = v b →
      (cfg.run srcs a proc f0 diags).map (SimSt.mapArr v) = (cfg.run srcs b proc f0 diags).map (SimSt.mapArr v) := by
  classical
  let upd0 : {a : A // I a} → Nat → Except PyErr {a : A // I a} := fun a n =>
    match h : cfg.arrUpdate a.1 n with
    | .error x => .error x
    | .ok a' => .ok ⟨a', hI a.1 n a' a.2 h⟩
  let cfg0 : SimCfg R IR F S {a : A // I a} P D O := cfg.withArr upd0 fun a => cfg.arrPath a.1
  have hupd0 : ∀ (a : {a : A // I a}) (n : Nat), cfg.arrUpdate a.1 n = (upd0 a n).map Subtype.val := by
    intro a n
    show _ = (match h : cfg.arrUpdate a.1 n with
      | .error x => Except.error x
      | .ok a' => Except.ok (⟨a', hI a.1 n a' a.2 h⟩ : {a : A // I a})).map Subtype.val
    split
    · next x h => rw [h]; rfl
    · next x h => exact h
  have h1 : ∀ a : {a : A // I a}, cfg.run srcs a.1 proc f0 diags =
      (cfg0.run srcs a proc f0 diags).map (SimSt.mapArr Subtype.val) := fun a =>
    mapArr_run cfg0 cfg.arrUpdate cfg.arrPath Subtype.val (fun _ _ _ => rfl) hupd0 srcs a proc f0 diags
  let upd1 : C → Nat → Except PyErr C := fun c n =>
    if h : ∃ a : {a : A // I a}, v a.1 = c then (cfg.arrUpdate h.choose.1 n).map v else .error .key
  have hupd1 : ∀ (a : {a : A // I a}) (n : Nat), upd1 (v a.1) n = (upd0 a n).map fun a => v a.1 := by
    intro a n
    have hex : ∃ b : {a : A // I a}, v b.1 = v a.1 := ⟨a, rfl⟩
    have e1 : upd1 (v a.1) n = (cfg.arrUpdate hex.choose.1 n).map v := dif_pos hex
    rw [e1, hd _ a.1 n hex.choose.2 a.2 hex.choose_spec, hupd0 a n]
    cases upd0 a n <;> rfl
  have h2 : ∀ a : {a : A // I a}, (cfg0.withArr upd1 path).run srcs (v a.1) proc f0 diags =
      (cfg0.run srcs a proc f0 diags).map (SimSt.mapArr fun a => v a.1) := fun a =>
    mapArr_run cfg0 upd1 path (fun a => v a.1) (fun a s m => (hp a.1 s m).symm) hupd1 srcs a proc f0 diags
  have h3 : ∀ a : {a : A // I a}, (cfg.run srcs a.1 proc f0 diags).map (SimSt.mapArr v) =
      (cfg0.withArr upd1 path).run srcs (v a.1) proc f0 diags := by
    intro a
    rw [h1, h2]
    cases cfg0.run srcs a proc f0 diags <;> rfl
  refine ⟨?_, ?_⟩
  · intro fin hfin
    rw [h1 ⟨a, ha⟩] at hfin
    cases h : cfg0.run srcs ⟨a, ha⟩ proc f0 diags with
    | error x => rw [h] at hfin; cases hfin
    | ok st =>
      rw [h] at hfin
      rw [← Except.ok.inj hfin]
      exact st.eng.arr.2
  · intro b hb hab
    rw [h3 ⟨a, ha⟩, h3 ⟨b, hb⟩]
    show (cfg0.withArr upd1 path).run srcs (v a) proc f0 diags = (cfg0.withArr upd1 path).run srcs (v b) proc f0 diags
    rw [hab]

end

section
variable {Pt H G K : Type} (k : G → K) (κ : K) (gen : GenFn Pt H G)
  (hpres : ∀ g s m t r, gen g s m t = .ok r → k r.1 = k g)
  (hdep : ∀ g g' s m t, k g = k g' → (gen g s m t).map Prod.snd = (gen g' s m t).map Prod.snd)
include hpres

/-- A generation on the global states with given constants. -/
def genOn (g : {g : G // k g = κ}) (s m : Geo Pt) (t : String) : Except PyErr ({g : G // k g = κ} × H) :=
  match h : gen g.1 s m t with
  | .error x => .error x
  | .ok r => .ok (⟨r.1, (hpres _ s m t r h).trans g.2⟩, r.2)

theorem genOn_val (g : {g : G // k g = κ}) (s m : Geo Pt) (t : String) :
    gen g.1 s m t = (genOn k κ gen hpres g s m t).map fun r => (r.1.1, r.2) := by
  unfold genOn
  split
  · next x h => rw [h]; rfl
  · next x h => exact h

include hdep

theorem genOn_unit : ∃ gen' : GenFn Pt H Unit, ∀ (g : {g : G // k g = κ}) (s m : Geo Pt) (t : String),
    gen' () s m t = (genOn k κ gen hpres g s m t).map fun r => ((), r.2) := by
  classical
  refine ⟨fun _ s m t => if h : ∃ g, k g = κ then (gen h.choose s m t).map fun r => ((), r.2) else .error .key, ?_⟩
  intro g s m t
  have hex : ∃ g, k g = κ := ⟨g.1, g.2⟩
  dsimp only
  rw [dif_pos hex]
  have h1 := hdep hex.choose g.1 s m t (hex.choose_spec.trans g.2.symm)
  rw [genOn_val k κ gen hpres g s m t] at h1
  cases hc : genOn k κ gen hpres g s m t with
  | error x =>
    rw [hc] at h1
    cases hc2 : gen hex.choose s m t with
    | error y => rw [hc2] at h1; cases h1; rfl
    | ok r => rw [hc2] at h1; cases h1
  | ok r =>
    rw [hc] at h1
    cases hc2 : gen hex.choose s m t with
    | error y => rw [hc2] at h1; cases h1
    | ok r' =>
      rw [hc2] at h1
      have : r'.2 = r.2 := Except.ok.inj h1
      show Except.ok ((), r'.2) = Except.ok ((), r.2)
      rw [this]

omit hdep in
theorem update_keeps (gc : G × Coll Pt H) (n : Nat) (gc' : G × Coll Pt H) (h0 : k gc.1 = κ)
    (h : Coll.update gen gc n = .ok gc') : k gc'.1 = κ := by
  have := projG_update (Subtype.val : {g : G // k g = κ} → G) (genOn k κ gen hpres) gen
    (genOn_val k κ gen hpres) (⟨gc.1, h0⟩, gc.2) n
  have e : projG (Subtype.val : {g : G // k g = κ} → G) ((⟨gc.1, h0⟩, gc.2) : {g : G // k g = κ} × Coll Pt H) = gc := rfl
  rw [e, h] at this
  cases hc : Coll.update (genOn k κ gen hpres) ((⟨gc.1, h0⟩, gc.2) : {g : G // k g = κ} × Coll Pt H) n with
  | error x => rw [hc] at this; cases this
  | ok r =>
    rw [hc] at this
    rw [Except.ok.inj this]
    exact r.1.2

omit hdep in
theorem setupIr_keeps (g : G) (c : Coll Pt H) (gc' : G × Coll Pt H) (h0 : k g = κ)
    (h : Coll.setupIr gen g c = .ok gc') : k gc'.1 = κ := by
  have := projG_setupIr (Subtype.val : {g : G // k g = κ} → G) (genOn k κ gen hpres) gen
    (genOn_val k κ gen hpres) ⟨g, h0⟩ c
  dsimp only at this
  rw [h] at this
  cases hc : Coll.setupIr (genOn k κ gen hpres) ⟨g, h0⟩ c with
  | error x => rw [hc] at this; cases this
  | ok r =>
    rw [hc] at this
    rw [Except.ok.inj this]
    exact r.1.2

theorem update_visible (a b : G × Coll Pt H) (n : Nat) (ha : k a.1 = κ) (hb : k b.1 = κ) (hab : a.2 = b.2) :
    (Coll.update gen a n).map Prod.snd = (Coll.update gen b n).map Prod.snd := by
  obtain ⟨gen', hg'⟩ := genOn_unit k κ gen hpres hdep
  have key : ∀ x : G × Coll Pt H, k x.1 = κ →
      (Coll.update gen x n).map Prod.snd = (Coll.update gen' ((), x.2) n).map Prod.snd := by
    intro x hx
    have h1 := projG_update (Subtype.val : {g : G // k g = κ} → G) (genOn k κ gen hpres) gen
      (genOn_val k κ gen hpres) (⟨x.1, hx⟩, x.2) n
    have h2 := projG_update (fun _ : {g : G // k g = κ} => ()) (genOn k κ gen hpres) gen'
      (fun g s m t => hg' g s m t) (⟨x.1, hx⟩, x.2) n
    have e1 : projG (Subtype.val : {g : G // k g = κ} → G) ((⟨x.1, hx⟩, x.2) : {g : G // k g = κ} × Coll Pt H) = x := rfl
    have e2 : projG (fun _ : {g : G // k g = κ} => ()) ((⟨x.1, hx⟩, x.2) : {g : G // k g = κ} × Coll Pt H) = ((), x.2) := rfl
    rw [e1] at h1
    rw [e2] at h2
    rw [h1, h2]
    cases Coll.update (genOn k κ gen hpres) ((⟨x.1, hx⟩, x.2) : {g : G // k g = κ} × Coll Pt H) n <;> rfl
  rw [key a ha, key b hb, hab]

end

section
variable {Pt H G : Type}

/-- Without moving arrays an update changes nothing. -/
theorem update_static (gen : GenFn Pt H G) (gc : G × Coll Pt H) (n : Nat) (hs : ∀ a ∈ gc.2.arrays, a.dynamic = false)
    (hf : gc.2.freq ≠ 0) : Coll.update gen gc n = .ok gc := by
  unfold Coll.update
  rw [if_neg hf]
  split_ifs
  · rfl
  · have h1 : gc.2.arrays.filter Arr.dynamic = [] := by
      rw [List.filter_eq_nil_iff]
      intro a ha
      rw [hs a ha]
      exact Bool.false_ne_true
    have h2 : gc.2.arrays.map (Arr.update n) = gc.2.arrays := by
      conv => rhs; rw [← List.map_id gc.2.arrays]
      apply List.map_congr_left
      intro a ha
      have := hs a ha
      unfold Arr.dynamic at this
      unfold Arr.update
      cases ht : a.traj with
      | none => rfl
      | some f => rw [ht] at this; cases this
    rw [h1, h2]
    rfl

end
end Verif
