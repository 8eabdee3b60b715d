import Verif.Props.Robots.InvertedPendulumFrames
import Verif.Props.Robots.DoubleInvertedPendulumFrames
import Verif.Props.Robots.HyAFrames
import Verif.Props.Robots.QuadrotorWithLoadFrames
import Verif.Props.Robots.HyQFrames

/-!
# Forward kinematics and Jacobians of the robots: remarks

The theorems C130 and C131 are in `Props/Robots/<robot>Frames.lean`.
-/

namespace CT.GenKin

open Matrix FrameJac Spatial

/-- The hypothesis of `IsJacobian` is met by every constant joint velocity. -/
example (v : ℕ → ℝ) (t : ℝ) : ∀ j, HasDerivAt (fun s : ℝ => (fun s j => s * v j) s j) (v j) t := fun j => by
  simpa using (hasDerivAt_id t).mul_const (v j)

open CT.Robots.HyA.Kin in
/-- C130: the frames at the centres of mass of the HyA are not exactly where the description puts them.  The generated
code has -0.0002, -0.00036 and 0.00309 (in metres) for the first of them where the description has -0.000196, -0.000361 and 0.003091. -/
theorem C130_HyA_rounding_violated :
    ¬ ∃ C : ℕ → Pose, (∀ d ∈ description ++ roundedDescription, C d.id = d.pose) ∧
      ∀ q, ∃ G, Arranged frames C q G ∧ ∀ x ∈ transforms, x.Right q (Pose.rel (G x.A) (G x.B)) := by
  rintro ⟨C, hC, h⟩
  obtain ⟨G, ⟨g0, g1⟩, h⟩ := h 0
  have c1 := hC ⟨fr_Shoulder_AA, 0, 0, 0, 0, 0, 0⟩ (List.mem_append_left _ (List.mem_of_getElem? (i := 0) rfl))
  have c2 := hC ⟨fr_Shoulder_AA_COM, -0.000196, -0.000361, 0.003091, 0, 0, 0⟩
    (List.mem_append_right _ (List.mem_of_getElem? (i := 0) rfl))
  have a1 := g1 ⟨fr_Shoulder_AA, fr_HyABase, some SAA⟩ (List.mem_of_getElem? (i := 0) rfl)
  have a2 := g1 ⟨fr_Shoulder_AA_COM, fr_Shoulder_AA, none⟩ (List.mem_of_getElem? (i := 7) rfl)
  have r := (h fr_HyABase_X_fr_Shoulder_AA_COM (List.mem_of_getElem? (i := 7) rfl)).1.2.2.2 0 [] 2 3
  have e : fr_HyABase_X_fr_Shoulder_AA_COM.hom.update (fr_HyABase_X_fr_Shoulder_AA_COM.hom.after 0 []) 0 2 3
      = 309 / 10 ^ 5 := by
    rw [Gen.value (r := 4) (c := 4) (by decide +kernel) 0 0 [] (by norm_num) (by norm_num)]
    show (E.k 309 5).eval 0 = _
    simp [E.eval]
  have e' := e.symm.trans r
  simp only [fr_HyABase_X_fr_Shoulder_AA_COM] at e'
  rw [a2, a1, g0, Pose.rel_one, c1, c2] at e'
  simp [Pose.hom, Pose.comp, Pose.one, Pose.turn, Descr.pose, rotX, rotY, rotZ, vecHead, vecTail] at e'
  norm_num [vecHead, vecTail] at e'

end CT.GenKin
