import Verif.Spec.Released
import Verif.Proofs.EventTrace

/-! # The deposits of an event and its track points -/

namespace Verif.Detector

open Verif.Spec Verif.Kinematics

variable {σ : Type} {env : SimEnv} {momenta : List Vec4} {vertex : ℝ × ℝ × ℝ} {Zs As : List ℤ}
  {config : Config} {grid : PadGrid} {g : GridEdges} {rng : Gen σ}

theorem mem_nucleusDeposits_iff {track : List Row} {primary : List ℤ} {label : ℤ} {d : Deposit} :
    d ∈ nucleusDeposits config grid g track primary label ↔
    ∃ re ∈ track.zip primary, 1 ≤ re.2 ∧ d ∈ releasedDeposits config grid g label re.1 re.2 := by
  unfold nucleusDeposits
  simp only [List.mem_flatMap, List.mem_filter, decide_eq_true_eq, and_assoc]
  rfl

/-- Every deposit of an event is made by a track point with at least one primary electron. -/
theorem _root_.Verif.Spec.EventTrace.released {indices : List ℤ} {s s' : σ}
    {tr : List (ℤ × List Deposit)}
    (h : EventTrace env momenta vertex Zs As config grid g rng indices s tr s') :
    ∀ x ∈ tr, ∀ d ∈ x.2, ∃ r n, Released env momenta vertex Zs As config rng indices s x.1 r n ∧
      1 ≤ n ∧ d ∈ releasedDeposits config grid g x.1 r n := by
  induction h with
  | nil => simp
  | neutral idx rest s s' tr hz _ ih =>
    intro x hx d hd
    rcases List.mem_cons.1 hx with rfl | hx
    · simp at hd
    · obtain ⟨r, n, h1, h2, h3⟩ := ih x hx d hd
      exact ⟨r, n, .neutral _ _ _ _ _ _ hz h1, h2, h3⟩
  | charged idx z a nucleus momentum track primary rest s s₁ s' tr hz hz0 ha hn hm ht he _ ih =>
    intro x hx d hd
    rcases List.mem_cons.1 hx with rfl | hx
    · obtain ⟨re, hre, h1, h2⟩ := mem_nucleusDeposits_iff.1 hd
      exact ⟨re.1, re.2, .here _ _ _ _ _ _ _ _ _ _ _ _ hz hz0 ha hn hm ht he hre, h1, h2⟩
    · obtain ⟨r, n, h1, h2, h3⟩ := ih x hx d hd
      exact ⟨r, n, .later _ _ _ _ _ _ _ _ _ _ _ _ _ hz hz0 ha hn hm ht he h1, h2, h3⟩

/-- The deposits of a track point with at least one primary electron are deposits of the event. -/
theorem _root_.Verif.Spec.EventTrace.of_released {indices : List ℤ} {s s' : σ}
    {tr : List (ℤ × List Deposit)}
    (h : EventTrace env momenta vertex Zs As config grid g rng indices s tr s') {label : ℤ} {r : Row}
    {n : ℤ} (hr : Released env momenta vertex Zs As config rng indices s label r n) (hn : 1 ≤ n) :
    ∃ x ∈ tr, x.1 = label ∧ ∀ d ∈ releasedDeposits config grid g label r n, d ∈ x.2 := by
  induction h with
  | nil => cases hr
  | neutral idx rest s s' tr hz _ ih =>
    cases hr with
    | here _ z a nucleus momentum track primary rest _ s₁ _ _ hz' hz0 =>
      exact absurd (Except.ok.inj (hz'.symm.trans hz)) hz0
    | neutral _ _ _ _ _ _ _ hr =>
      obtain ⟨x, hx, h1, h2⟩ := ih hr
      exact ⟨x, List.mem_cons_of_mem _ hx, h1, h2⟩
    | later _ z a nucleus momentum track primary rest _ s₁ _ _ _ hz' hz0 =>
      exact absurd (Except.ok.inj (hz'.symm.trans hz)) hz0
  | charged idx z a nucleus momentum track primary rest s s₁ s' tr hz hz0 ha hn' hm ht he _ ih =>
    cases hr with
    | here _ z2 a2 nucleus2 momentum2 track2 primary2 _ _ s2 _ _ hz2 hz02 ha2 hn2 hm2 ht2 he2 hrn =>
      obtain rfl := Except.ok.inj (hz.symm.trans hz2)
      obtain rfl := Except.ok.inj (ha.symm.trans ha2)
      obtain rfl := Except.ok.inj (hn'.symm.trans hn2)
      obtain rfl := Except.ok.inj (hm.symm.trans hm2)
      obtain rfl := Except.ok.inj (ht.symm.trans ht2)
      obtain ⟨rfl, rfl⟩ := Prod.mk.inj (Except.ok.inj (he.symm.trans he2))
      exact ⟨_, List.mem_cons_self, rfl, fun d hd => mem_nucleusDeposits_iff.2 ⟨(r, n), hrn, hn, hd⟩⟩
    | neutral _ _ _ _ _ _ hz2 => exact absurd (Except.ok.inj (hz.symm.trans hz2)) hz0
    | later _ z2 a2 nucleus2 momentum2 track2 primary2 _ _ s2 _ _ _ hz2 hz02 ha2 hn2 hm2 ht2 he2 hr =>
      obtain rfl := Except.ok.inj (hz.symm.trans hz2)
      obtain rfl := Except.ok.inj (ha.symm.trans ha2)
      obtain rfl := Except.ok.inj (hn'.symm.trans hn2)
      obtain rfl := Except.ok.inj (hm.symm.trans hm2)
      obtain rfl := Except.ok.inj (ht.symm.trans ht2)
      obtain ⟨rfl, rfl⟩ := Prod.mk.inj (Except.ok.inj (he.symm.trans he2))
      obtain ⟨x, hx, h1, h2⟩ := ih hr
      exact ⟨x, List.mem_cons_of_mem _ hx, h1, h2⟩

end Verif.Detector
