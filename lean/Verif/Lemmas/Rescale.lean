import Verif.Model.Rescale

namespace Improver

theorem npClip_mem {x lo hi : ℚ} (h : lo ≤ hi) : lo ≤ npClip x lo hi ∧ npClip x lo hi ≤ hi := by
  unfold npClip
  exact ⟨le_min (le_max_right _ _) h, min_le_right _ _⟩

theorem npClip_of_le {x lo hi : ℚ} (h : lo ≤ hi) (hx : x ≤ lo) : npClip x lo hi = lo := by
  unfold npClip; rw [max_eq_right hx, min_eq_left h]

theorem npClip_of_ge {x lo hi : ℚ} (_ : lo ≤ hi) (hx : hi ≤ x) : npClip x lo hi = hi := by
  unfold npClip; exact min_eq_right (le_trans hx (le_max_left _ _))

theorem npClip_of_mem {x lo hi : ℚ} (h1 : lo ≤ x) (h2 : x ≤ hi) : npClip x lo hi = x := by
  unfold npClip; rw [max_eq_left h1, min_eq_left h2]

theorem npClip_mono {x y lo hi : ℚ} (h : x ≤ y) : npClip x lo hi ≤ npClip y lo hi := by
  unfold npClip; exact min_le_min_right _ (max_le_max_right _ h)

/-- Closed form of a successful clipped rescale. -/
theorem rescale_clip_ok {x a b c d v : ℚ} (h : rescale x (a, b) (c, d) true = .ok v) :
    a ≠ b ∧ c ≠ d ∧ v = npClip ((x - a) * (d - c) / (b - a) + c) (min c d) (max c d) := by
  unfold rescale at h
  simp only at h
  split_ifs at h with h1 h2
  exact ⟨h1, h2, by injection h with h; exact h.symm⟩

theorem rescale_clip_eq {x a b c d : ℚ} (h1 : a ≠ b) (h2 : c ≠ d) :
    rescale x (a, b) (c, d) true
      = .ok (npClip ((x - a) * (d - c) / (b - a) + c) (min c d) (max c d)) := by
  simp [rescale, h1, h2]

end Improver
