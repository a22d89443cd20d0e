import Verif.Lemmas.SharpShift
import Verif.Lemmas.WideStencil
import Verif.Model.SharpGrid

set_option linter.unusedSectionVars false

/-!
One row of `flux1`: what each cell and each interface reads.
-/
namespace PyClaw
open Spec

variable {K A : Type*} [Field K] [LinearOrder K] [IsStrictOrderedRing K] {m w : Nat}

theorem reconRow_none_iff (R : ReconCfg K m w) (rp : Riemann K A m w) {A' : Type*} (rp' : Riemann K A' m w) (n N n' N' g : Nat)
    (aux : Int → A) (aux' : Int → A') (q q' : Int → Fin m → K) :
    reconRow R rp n N g aux q = none ↔ reconRow R rp' n' N' g aux' q' = none := by
  unfold reconRow fRecon
  dsimp only
  split_ifs <;> simp

theorem reconRow_near (R : ReconCfg K m w) (rp : Riemann K A m w) {n N n' N' g : Nat} (hN : n ≤ N) (hN' : n' ≤ N') (hR : R.Fits g)
    (aux aux' : Int → A) (q q' : Int → Fin m → K) (i s : Int)
    (h : ∀ u : Int, i - (g - 1) ≤ u → u ≤ i + (g - 1) → aux' u = aux (u + s) ∧ q' u = q (u + s)) {e e' : Edges K m}
    (he : reconRow R rp n N g aux q = some e) (he' : reconRow R rp n' N' g aux' q' = some e') :
    (0 ≤ i → i ≤ n' → 0 ≤ i + s → i + s ≤ n → e'.qr i = e.qr (i + s)) ∧
    (1 ≤ i → i ≤ n' + 1 → 1 ≤ i + s → i + s ≤ n + 1 → e'.ql i = e.ql (i + s)) := by
  have := fRecon_near R.eps R.tol R.undef R.first R.first rp
    ⟨if (R.limType = 2 ∧ R.charDecomp = 0) ∨ R.limType = 3 then N else n, g, 0, 0⟩
    ⟨if (R.limType = 2 ∧ R.charDecomp = 0) ∨ R.limType = 3 then N' else n', g, 0, 0⟩ rfl R.limType R.charDecomp R.order hR.2 R.fwave
    R.limEqn R.limWave R.old R.old aux aux' q q' i s (fun u h1 h2 => (h u h1 h2).2) (fun u h1 h2 => (h u h1 h2).1) he he'
  dsimp only at this
  constructor
  · intro h1 h2 h3 h4
    refine this.1 h1 ?_ h3 ?_ <;> split_ifs <;> omega
  · intro h1 h2 h3 h4
    refine this.2 h1 ?_ h3 ?_ <;> split_ifs <;> omega

/-- The Riemann problems of a row. -/
def rowRp (rp : Riemann K A m w) (aux : Int → A) (e : Edges K m) (i : Int) : Rp K m w := rp (e.qr (i - 1)) (e.ql i) (aux (i - 1)) (aux i)

theorem fluxDtdx_near {f2003 : Bool} {capa : Option (A → K)} (hcap : capa = none ∨ f2003 = false) (n n' g : Nat) (dt dx : K)
    (aux aux' : Int → A) (i j : Int) (h : aux' i = aux j) :
    fluxDtdx f2003 ⟨n', g, dt, dx⟩ capa aux' i = fluxDtdx f2003 ⟨n, g, dt, dx⟩ capa aux j := by
  unfold fluxDtdx
  rcases hcap with rfl | rfl
  · rfl
  · cases capa <;> simp [h]

variable (f2003 : Bool) (R : ReconCfg K m w) (rp : Riemann K A m w) (tf : TotalFluct K A m) (g : Nat) (dx : K) (capa : Option (A → K))

theorem flux1_near (hcap : capa = none ∨ f2003 = false) (hR : R.Fits g) {n N n' N' : Nat} (hN : n ≤ N) (hN' : n' ≤ N') (dt : K)
    (aux aux' : Int → A) (q q' : Int → Fin m → K) (i s : Int)
    (h : ∀ u : Int, i - g ≤ u → u ≤ i + g → aux' u = aux (u + s) ∧ q' u = q (u + s)) {e e' : Edges K m}
    (he : reconRow R rp n N g aux q = some e) (he' : reconRow R rp n' N' g aux' q' = some e')
    (i1 : 1 ≤ i) (i2 : i ≤ n') (i3 : 1 ≤ i + s) (i4 : i + s ≤ n) :
    (flux1 f2003 rp tf ⟨n', g, dt, dx⟩ capa aux' e').1 i = (flux1 f2003 rp tf ⟨n, g, dt, dx⟩ capa aux e).1 (i + s) := by
  have hg : (1 : Int) ≤ g := by exact_mod_cast hR.1
  have r0 := (reconRow_near R rp hN hN' hR aux aux' q q' (i - 1) s (fun u h1 h2 => h u (by omega) (by omega)) he he').1
    (by omega) (by omega) (by omega) (by omega)
  have r1 := reconRow_near R rp hN hN' hR aux aux' q q' i s (fun u h1 h2 => h u (by omega) (by omega)) he he'
  have r2 := (reconRow_near R rp hN hN' hR aux aux' q q' (i + 1) s (fun u h1 h2 => h u (by omega) (by omega)) he he').2
    (by omega) (by omega) (by omega) (by omega)
  have r1r := r1.1 (by omega) (by omega) (by omega) (by omega)
  have r1l := r1.2 (by omega) (by omega) (by omega) (by omega)
  have a0 := (h (i - 1) (by omega) (by omega)).1
  have a1 := (h i (by omega) (by omega)).1
  have a2 := (h (i + 1) (by omega) (by omega)).1
  have e0 : i - 1 + s = i + s - 1 := by ring
  have e2 : i + 1 + s = i + s + 1 := by ring
  rw [e0] at r0 a0
  rw [e2] at r2 a2
  have t1 := fluxDtdx_near hcap n n' g dt dx aux aux' i (i + s) a1
  unfold flux1
  have b1 : i - 1 + 1 = i := by ring
  have b2 : i + 1 - 1 = i := by ring
  have b3 : i + s - 1 + 1 = i + s := by ring
  have b4 : i + s + 1 - 1 = i + s := by ring
  cases tf <;> dsimp only <;> rw [if_pos ⟨i1, i2⟩, if_pos ⟨i3, i4⟩] <;> simp only [t1, b1, b2, b3, b4, r0, r1r, r1l, r2, a0, a1, a2]

theorem number_near (hcap : capa = none ∨ f2003 = false) (hR : R.Fits g) {n N n' N' : Nat} (hN : n ≤ N) (hN' : n' ≤ N') (dt : K)
    (aux aux' : Int → A) (q q' : Int → Fin m → K) (i s : Int)
    (h : ∀ u : Int, i - g ≤ u → u ≤ i + (g - 1) → aux' u = aux (u + s) ∧ q' u = q (u + s)) {e e' : Edges K m}
    (he : reconRow R rp n N g aux q = some e) (he' : reconRow R rp n' N' g aux' q' = some e')
    (i1 : 1 ≤ i) (i2 : i ≤ n' + 1) (i3 : 1 ≤ i + s) (i4 : i + s ≤ n + 1) (x : K) :
    WaveNumber (fluxDtdx f2003 ⟨n', g, dt, dx⟩ capa aux') (rowRp rp aux' e') i x ↔
      WaveNumber (fluxDtdx f2003 ⟨n, g, dt, dx⟩ capa aux) (rowRp rp aux e) (i + s) x := by
  have hg : (1 : Int) ≤ g := by exact_mod_cast hR.1
  have r0 := (reconRow_near R rp hN hN' hR aux aux' q q' (i - 1) s (fun u h1 h2 => h u (by omega) (by omega)) he he').1
    (by omega) (by omega) (by omega) (by omega)
  have r1 := (reconRow_near R rp hN hN' hR aux aux' q q' i s (fun u h1 h2 => h u (by omega) (by omega)) he he').2
    (by omega) (by omega) (by omega) (by omega)
  have a0 := (h (i - 1) (by omega) (by omega)).1
  have a1 := (h i (by omega) (by omega)).1
  have e0 : i - 1 + s = i + s - 1 := by ring
  rw [e0] at r0 a0
  have t0 := fluxDtdx_near hcap n n' g dt dx aux aux' (i - 1) (i + s - 1) a0
  have t1 := fluxDtdx_near hcap n n' g dt dx aux aux' i (i + s) a1
  unfold WaveNumber rowRp
  simp only [t0, t1, r0, r1, a0, a1]

/-- The new value of cell `i` of a row: `flux1` on that one cell and its neighbours. -/
def rowNew (dt : K) (aux : Int → A) (q : Int → Fin m → K) (i : Int) : Fin m → K :=
  match reconRow R rp 1 1 g (fun u => aux (u + (i - 1))) (fun u => q (u + (i - 1))) with
  | some e => (flux1 f2003 rp tf ⟨1, g, dt, dx⟩ capa (fun u => aux (u + (i - 1))) e).1 1
  | none => 0

/-- The Courant numbers of interface `i` of a row. -/
def rowNum (dt : K) (aux : Int → A) (q : Int → Fin m → K) (i : Int) (x : K) : Prop :=
  ∃ e, reconRow R rp 1 1 g (fun u => aux (u + (i - 1))) (fun u => q (u + (i - 1))) = some e ∧
    WaveNumber (fluxDtdx f2003 ⟨1, g, dt, dx⟩ capa (fun u => aux (u + (i - 1)))) (rowRp rp (fun u => aux (u + (i - 1))) e) 1 x

theorem flux1_row (hcap : capa = none ∨ f2003 = false) (hR : R.Fits g) {n N : Nat} (hN : n ≤ N) (dt : K)
    (aux : Int → A) (q : Int → Fin m → K) {e : Edges K m} (he : reconRow R rp n N g aux q = some e) :
    (∀ i : Int, 1 ≤ i → i ≤ n → (flux1 f2003 rp tf ⟨n, g, dt, dx⟩ capa aux e).1 i =
      rowNew f2003 R rp tf g dx capa dt aux q i) ∧
    IsMaxWithZero (fun x => ∃ i : Int, 1 ≤ i ∧ i ≤ n + 1 ∧ rowNum f2003 R rp g dx capa dt aux q i x)
      (flux1 f2003 rp tf ⟨n, g, dt, dx⟩ capa aux e).2 := by
  have hs : ∀ i : Int, ∃ e', reconRow R rp 1 1 g (fun u => aux (u + (i - 1))) (fun u => q (u + (i - 1))) = some e' := by
    intro i
    cases h : reconRow R rp 1 1 g (fun u => aux (u + (i - 1))) (fun u => q (u + (i - 1))) with
    | some e' => exact ⟨e', rfl⟩
    | none => rw [reconRow_none_iff R rp rp 1 1 n N g _ aux _ q] at h; rw [h] at he; cases he
  refine ⟨fun i i1 i2 => ?_, ?_⟩
  · obtain ⟨e', he'⟩ := hs i
    unfold rowNew
    rw [he']
    dsimp only
    rw [flux1_near f2003 R rp tf g dx capa hcap hR hN le_rfl dt aux (fun u => aux (u + (i - 1))) q (fun u => q (u + (i - 1))) 1 (i - 1)
      (fun u _ _ => ⟨rfl, rfl⟩) he he' le_rfl (by simp) (by omega) (by omega)]
    congr 1
    ring
  · have h2 : (flux1 f2003 rp tf ⟨n, g, dt, dx⟩ capa aux e).2 =
        fCfl n (fluxDtdx f2003 ⟨n, g, dt, dx⟩ capa aux) (rowRp rp aux e) := by
      unfold flux1 rowRp
      cases tf <;> rfl
    rw [h2]
    refine isMax_congr (fun x => ?_) (fCfl_isMax n _ _)
    refine exists_congr fun i => and_congr_right fun i1 => and_congr_right fun i2 => ?_
    obtain ⟨e', he'⟩ := hs i
    unfold rowNum
    rw [he']
    simp only [Option.some.injEq, exists_eq_left']
    rw [number_near f2003 R rp g dx capa hcap hR hN le_rfl dt aux (fun u => aux (u + (i - 1))) q (fun u => q (u + (i - 1))) 1 (i - 1)
      (fun u _ _ => ⟨rfl, rfl⟩) he he' le_rfl (by simp) (by omega) (by omega) x]
    rw [show (1 : Int) + (i - 1) = i by ring]

theorem rowNew_near (hcap : capa = none ∨ f2003 = false) (hR : R.Fits g) (dt : K)
    (aux aux' : Int → A) (q q' : Int → Fin m → K) (s i : Int)
    (h : ∀ u : Int, i - g ≤ u → u ≤ i + g → aux' u = aux (u + s) ∧ q' u = q (u + s)) :
    rowNew f2003 R rp tf g dx capa dt aux' q' i = rowNew f2003 R rp tf g dx capa dt aux q (i + s) := by
  unfold rowNew
  cases he : reconRow R rp 1 1 g (fun u => aux (u + (i + s - 1))) (fun u => q (u + (i + s - 1))) with
  | none =>
    rw [reconRow_none_iff R rp rp 1 1 1 1 g _ (fun u => aux' (u + (i - 1))) _ (fun u => q' (u + (i - 1)))] at he
    rw [he]
  | some e =>
    cases he' : reconRow R rp 1 1 g (fun u => aux' (u + (i - 1))) (fun u => q' (u + (i - 1))) with
    | none =>
      rw [reconRow_none_iff R rp rp 1 1 1 1 g _ (fun u => aux (u + (i + s - 1))) _ (fun u => q (u + (i + s - 1))), he] at he'
      cases he'
    | some e' =>
      have := flux1_near f2003 R rp tf g dx capa hcap hR le_rfl le_rfl dt (fun u => aux (u + (i + s - 1))) (fun u => aux' (u + (i - 1)))
        (fun u => q (u + (i + s - 1))) (fun u => q' (u + (i - 1))) 1 0
        (fun u _ _ => by
          have := h (u + (i - 1)) (by omega) (by omega)
          rw [show u + (i - 1) + s = u + 0 + (i + s - 1) by ring] at this
          exact this) he he' le_rfl (by simp) (by simp) (by simp)
      simpa using this

theorem rowNum_near (hcap : capa = none ∨ f2003 = false) (hR : R.Fits g) (dt : K)
    (aux aux' : Int → A) (q q' : Int → Fin m → K) (s i : Int) (x : K)
    (h : ∀ u : Int, i - g ≤ u → u ≤ i + (g - 1) → aux' u = aux (u + s) ∧ q' u = q (u + s)) :
    rowNum f2003 R rp g dx capa dt aux' q' i x ↔ rowNum f2003 R rp g dx capa dt aux q (i + s) x := by
  unfold rowNum
  cases he : reconRow R rp 1 1 g (fun u => aux (u + (i + s - 1))) (fun u => q (u + (i + s - 1))) with
  | none =>
    rw [reconRow_none_iff R rp rp 1 1 1 1 g _ (fun u => aux' (u + (i - 1))) _ (fun u => q' (u + (i - 1)))] at he
    rw [he]
    simp
  | some e =>
    cases he' : reconRow R rp 1 1 g (fun u => aux' (u + (i - 1))) (fun u => q' (u + (i - 1))) with
    | none =>
      rw [reconRow_none_iff R rp rp 1 1 1 1 g _ (fun u => aux (u + (i + s - 1))) _ (fun u => q (u + (i + s - 1))), he] at he'
      cases he'
    | some e' =>
      have := number_near f2003 R rp g dx capa hcap hR le_rfl le_rfl dt (fun u => aux (u + (i + s - 1))) (fun u => aux' (u + (i - 1)))
        (fun u => q (u + (i + s - 1))) (fun u => q' (u + (i - 1))) 1 0
        (fun u _ _ => by
          have := h (u + (i - 1)) (by omega) (by omega)
          rw [show u + (i - 1) + s = u + 0 + (i + s - 1) by ring] at this
          exact this) he he' le_rfl (by simp) (by simp) (by simp) x
      simpa using this

theorem supported_some {R : ReconCfg K m w} {g : Nat} (h : R.Supported g) (rp : Riemann K A m w) (n N : Nat) (aux : Int → A)
    (q : Int → Fin m → K) : reconRow R rp n N g aux q = some ((reconRow R rp n N g aux q).getD R.old) := by
  cases he : reconRow R rp n N g aux q with
  | some e => rfl
  | none => exact absurd ((reconRow_none_iff R rp _ n N 1 1 g aux _ q _).mp he) h

theorem not_supported {R : ReconCfg K m w} {g : Nat} (h : ¬ R.Supported g) (rp : Riemann K A m w) (n N : Nat) (aux : Int → A)
    (q : Int → Fin m → K) : reconRow R rp n N g aux q = none := by
  unfold ReconCfg.Supported at h
  push Not at h
  exact (reconRow_none_iff R _ rp 1 1 n N g _ aux _ q).mp h

end PyClaw
