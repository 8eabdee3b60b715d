#!/usr/bin/env python3
"""Writes the proofs about virtual work and energy: lean/Verif/Props/Robots/<robot>Power.lean."""
import os
import sys

import gen_robots as g
import gen_robot_props as p


def write(robot, R):
    out = []
    w = out.append
    n = len(R['joints'])
    fl = R['floating']
    w('import Verif.Props.Robots.%s\nimport Verif.Props.ArticulatedPower\n' % robot)
    w('/-! # %s: virtual work and energy (written by `tools/gen_power.py`) -/\n' % robot)
    w('set_option linter.unusedSimpArgs false\nset_option maxRecDepth 4000\n')
    w('namespace CT.Robots.%s\n' % robot)
    w('open Matrix Spatial Articulated FrameJac OpJac\n')
    joint = {}
    for l in R['links']:
        x = R['xname'][l]
        t = R['T'][('Motion', x)]
        E, o = p.frame(t)
        j = t['loc'][0][2]
        joint[l] = j
        Es = '!![' + '; '.join(', '.join(E[a][b].lean() for b in range(3)) for a in range(3)) + ']'
        E0 = Es.replace('(q %s)' % j, '((0 : Q) %s)' % j)
        w('theorem spin_%s (q : Q) : motion_%s_update (motion_%s_new 0) q = spin (q %s) * motion_%s_update (motion_%s_new 0) 0 := by'
          % (x, x, x, j, x, x))
        w('  have hE : (%s : M3)\n      = tz (q %s) * %s := by' % (Es, j, E0))
        w('    ext i j; fin_cases i <;> fin_cases j <;> simp [tz, Matrix.mul_apply, Fin.sum_univ_succ]')
        w('  rw [(motion_%s_isMotion 0 q).eq, (spin_motion (motion_%s_isMotion 0 0) (q %s)).eq, hE]\n' % (x, x, j))

    def moves(ls):
        s = '.nil'
        for l in reversed(ls):
            x, j = R['xname'][l], joint[l]
            s = ('.cons _ _ _ _ (fun s => q s %s) (fun s => spin_%s (q s)) (motion_%s_isMotion 0 0) (fun _ => rfl) (tensor_%s_body 0) (hq %s) (hqd %s) (%s)'
                 % (j, x, x, l, j, j, s)) if s != '.nil' else \
                ('.cons _ _ _ _ (fun s => q s %s) (fun s => spin_%s (q s)) (motion_%s_isMotion 0 0) (fun _ => rfl) (tensor_%s_body 0) (hq %s) (hqd %s) .nil'
                 % (j, x, x, l, j, j))
        return s

    if not fl:
        w('theorem links_moves {q qd : ℝ → Q} {qdd : Q} {t : ℝ} (fext : Ext) (hq : VDeriv q (qd t) t) (hqd : VDeriv qd qdd t) :')
        w('    Moves t (fun s => linksAt (q s) (qd s) fext) (List.ofFn qdd) :=')
        w('  %s\n' % moves(R['links']))
        w('theorem links_free (q qd : Q) (fext : Ext) : linksAt q qd 0 = (linksAt q qd fext).map Joint.free := rfl\n')
        w('''/-- **C135 (%(r)s).**  External forces enter `id` by virtual work: whatever the rates `x` of the joints, the power
of the joint forces without external forces is the power of the joint forces with them plus the power of the
external forces on the links that move with these rates. -/
theorem C135_%(r)s (z y : Robot) (cs ds : List Call) (q qd qdd x : Q) (fext : Ext) :
    x ⬝ᵥ ((Robot.after z cs).id q qd qdd 0).2
      = x ⬝ᵥ ((Robot.after y ds).id q qd qdd fext).2 + power 0 ((linksAt q qd fext).zip (List.ofFn x)) := by
  have h := fixed_power (linksAt q qd fext) (List.ofFn qdd) (List.ofFn x) (by simp [links_length]) (by simp [links_length])
  rw [← links_free, ← id_eq (inv_after z cs), ← id_eq (inv_after y ds), ldot_ofFn, ldot_ofFn] at h
  exact h

/-- **C136 (%(r)s).**  Energy balance of `id`: along every motion, the sum of the kinetic energy (by the joint space
inertia matrix) and the potential energy changes by the power of the joint forces that `id` computes for the
accelerations of the motion and of the external forces. -/
theorem C136_%(r)s_id (z y : Robot) (cs ds : List Call) {q qd : ℝ → Q} {qdd : Q} {t : ℝ} (fext : Ext)
    (hq : VDeriv q (qd t) t) (hqd : VDeriv qd qdd t) :
    HasDerivAt (fun s => qd s ⬝ᵥ (((Robot.after z cs).jsim (q s)).2 *ᵥ qd s) / 2 + grav * height 1 0 (linksAt (q s) (qd s) 0))
      (qd t ⬝ᵥ ((Robot.after y ds).id (q t) (qd t) qdd fext).2
        + power 0 ((linksAt (q t) (qd t) fext).zip (List.ofFn (qd t)))) t := by
  have h := fixed_balance (links_moves fext hq hqd)
  rw [← id_eq (inv_after y ds)] at h
  rw [← ldot_ofFn]
  refine h.congr_of_eventuallyEq (.of_forall fun s => ?_)
  show _ / 2 + _ = _ / 2 + _
  rw [C128_%(r)s, links_free (q s) (qd s) fext, energy_free, height_free]
  rfl

/-- **C136 (%(r)s).**  Energy balance of `fd`: along every motion with the accelerations that `fd` computes, the sum of
the kinetic energy and the potential energy changes by the power of the joint forces and of the external forces. -/
theorem C136_%(r)s_fd (z y : Robot) (cs ds : List Call) {q qd : ℝ → Q} {t : ℝ} (tau : Q) (fext : Ext)
    (hq : VDeriv q (qd t) t) (hqd : VDeriv qd ((Robot.after y ds).fd (q t) (qd t) tau fext).2 t) :
    HasDerivAt (fun s => qd s ⬝ᵥ (((Robot.after z cs).jsim (q s)).2 *ᵥ qd s) / 2 + grav * height 1 0 (linksAt (q s) (qd s) 0))
      (qd t ⬝ᵥ tau + power 0 ((linksAt (q t) (qd t) fext).zip (List.ofFn (qd t)))) t := by
  have h := C136_%(r)s_id z z cs cs fext hq hqd
  rwa [(C124_%(r)s z y cs ds (q t) (qd t) tau _ fext).2 rfl] at h

/-- Motions as in `C136_%(r)s_fd` exist through every state. -/
example (y : Robot) (ds : List Call) (q₀ qd₀ tau : Q) (fext : Ext) : ∃ q qd : ℝ → Q, q 0 = q₀ ∧ qd 0 = qd₀ ∧
    VDeriv q (qd 0) 0 ∧ VDeriv qd ((Robot.after y ds).fd (q 0) (qd 0) tau fext).2 0 :=
  line_motion q₀ qd₀ fun q qd => ((Robot.after y ds).fd q qd tau fext).2
''' % {'r': robot})
    else:
        base = R['base']
        w('theorem branches_moves {q qd : ℝ → Q} {qdd : Q} {t : ℝ} (fext : Ext) (hq : VDeriv q (qd t) t) (hqd : VDeriv qd qdd t) :')
        w('    MovesAll t (fun s => branchesAt (q s) (qd s) fext) (split qdd) :=')
        s = '.nil'
        for b in reversed(R['brs']):
            s = '.cons (%s)\n    %s' % (moves(b), s if s == '.nil' else '(' + s + ')')
        w('  %s\n' % s)
        w('theorem branches_free (q qd : Q) (fext : Ext) : branchesAt q qd 0 = (branchesAt q qd fext).map (List.map Joint.free) := rfl\n')
        d = {'r': robot, 'b': base, 'B': base.upper()}
        w('''/-- **C135 (%(r)s).**  External forces enter `id_fully_actuated` by virtual work: whatever the velocity `u` of the base and
the rates `x` of the joints, the power of the forces on base and joints without external forces is their power with
them plus the power of the external forces on base and links that move with these rates. -/
theorem C135_%(r)s (z y : Robot) (cs ds : List Call) (q : Q) (g v acc u : V6) (qd qdd x : Q) (fext : Ext) :
    u ⬝ᵥ ((Robot.after z cs).id_full q g v acc qd qdd 0).2.1 + x ⬝ᵥ ((Robot.after z cs).id_full q g v acc qd qdd 0).2.2
      = u ⬝ᵥ ((Robot.after y ds).id_full q g v acc qd qdd fext).2.1 + x ⬝ᵥ ((Robot.after y ds).id_full q g v acc qd qdd fext).2.2
        + (u ⬝ᵥ fext %(B)s + ((List.zipWith List.zip (branchesAt q qd fext) (split x)).map (power u)).sum) := by
  have h := float_power (baseAt v fext) g acc u (branchesAt q qd fext) (split qdd) (split x) rfl rfl
  have h1 := full_eq (inv_after z cs) q g v acc qd qdd 0
  have h2 := full_eq (inv_after y ds) q g v acc qd qdd fext
  rw [← branches_free, show { baseAt v fext with fext := 0 } = baseAt v 0 from rfl, ← h1, ← h2] at h
  simp only [split_dot] at h
  exact h

/-- **C136 (%(r)s).**  Energy balance of `id_fully_actuated`: along every motion of base and joints, the sum of the kinetic
energy (by the joint space inertia matrix) and the potential energy changes by the power of the forces on base and joints that
`id_fully_actuated` computes for the accelerations of the motion and of the external forces.  `R` and `p` are the orientation
and the position of the base. -/
theorem C136_%(r)s_id (z y : Robot) (cs ds : List Call) {q qd : ℝ → Q} {qdd : Q} {R : ℝ → M3} {p ω v : ℝ → V3} {acc : V6}
    {t : ℝ} (fext : Ext) (hq : VDeriv q (qd t) t) (hqd : VDeriv qd qdd t) (hR : MDeriv R (R t * cpm (ω t)) t)
    (hp : VDeriv p (R t *ᵥ v t) t) (hv : VDeriv (fun s => join (ω s) (v s)) acc t) :
    HasDerivAt (fun s => Sum.elim (join (ω s) (v s)) (qd s)
          ⬝ᵥ (((Robot.after z cs).jsim (q s)).2 *ᵥ Sum.elim (join (ω s) (v s)) (qd s)) / 2
        + grav * (lift (R s) (p s) Inertias.std.%(b)s + ((branchesAt (q s) (qd s) 0).map (height (R s) (p s))).sum))
      (join (ω t) (v t) ⬝ᵥ ((Robot.after y ds).id_full (q t) (gravIn (R t)) (join (ω t) (v t)) acc (qd t) qdd fext).2.1
        + qd t ⬝ᵥ ((Robot.after y ds).id_full (q t) (gravIn (R t)) (join (ω t) (v t)) acc (qd t) qdd fext).2.2
        + (join (ω t) (v t) ⬝ᵥ fext %(B)s
          + ((List.zipWith List.zip (branchesAt (q t) (qd t) fext) (split (qd t))).map (power (join (ω t) (v t)))).sum)) t := by
  have h := float_balance (branches_moves fext hq hqd) (b := baseAt (join (ω t) (v t)) fext) (tensor_%(b)s_body 0) rfl hv hR hp
  rw [← full_eq (inv_after y ds)] at h
  rw [← split_dot]
  refine h.congr_of_eventuallyEq (.of_forall fun s => ?_)
  show _ / 2 + _ = _ / 2 + _
  rw [C128_%(r)s, branches_free (q s) (qd s) fext, energies_free, heights_free]
  rfl
''' % d)
        if robot == 'HyQ':
            w('''/-- **C136 (%(r)s).**  Energy balance of `fd`: along every motion with the accelerations that `fd` computes, the sum of
the kinetic energy and the potential energy changes by the power of the joint forces and of the external forces. -/
theorem C136_%(r)s_fd (z y : Robot) (cs ds : List Call) {q qd : ℝ → Q} {R : ℝ → M3} {p ω v : ℝ → V3}
    {t : ℝ} (tau : Q) (fext : Ext) (hq : VDeriv q (qd t) t)
    (hqd : VDeriv qd ((Robot.after y ds).fd (q t) (join (ω t) (v t)) (gravIn (R t)) (qd t) tau fext).2.2 t)
    (hR : MDeriv R (R t * cpm (ω t)) t) (hp : VDeriv p (R t *ᵥ v t) t)
    (hv : VDeriv (fun s => join (ω s) (v s)) ((Robot.after y ds).fd (q t) (join (ω t) (v t)) (gravIn (R t)) (qd t) tau fext).2.1 t) :
    HasDerivAt (fun s => Sum.elim (join (ω s) (v s)) (qd s)
          ⬝ᵥ (((Robot.after z cs).jsim (q s)).2 *ᵥ Sum.elim (join (ω s) (v s)) (qd s)) / 2
        + grav * (lift (R s) (p s) Inertias.std.%(b)s + ((branchesAt (q s) (qd s) 0).map (height (R s) (p s))).sum))
      (qd t ⬝ᵥ tau + (join (ω t) (v t) ⬝ᵥ fext %(B)s
          + ((List.zipWith List.zip (branchesAt (q t) (qd t) fext) (split (qd t))).map (power (join (ω t) (v t)))).sum)) t := by
  obtain ⟨a, ha⟩ : ∃ a, ((Robot.after y ds).fd (q t) (join (ω t) (v t)) (gravIn (R t)) (qd t) tau fext).2 = a := ⟨_, rfl⟩
  rw [ha] at hqd hv
  have h := C136_%(r)s_id z z cs cs fext hq hqd hR hp hv
  rw [(C125_%(r)s_fd z y cs ds (q t) (gravIn (R t)) (join (ω t) (v t)) a.1 (qd t) tau a.2 fext).2 ha.symm, dotProduct_zero, zero_add] at h
  exact h
''' % d)
            ex = '((Robot.after y ds).fd q (join ω v) (gravIn R) qd tau fext).2'
            w('''/-- Motions as in `C136_%(r)s_fd` exist through every state. -/
example (y : Robot) (ds : List Call) (q₀ qd₀ tau : Q) (R₀ : M3) (p₀ ω₀ v₀ : V3) (fext : Ext) :
    ∃ (q qd : ℝ → Q) (R : ℝ → M3) (p ω v : ℝ → V3), q 0 = q₀ ∧ qd 0 = qd₀ ∧ R 0 = R₀ ∧ p 0 = p₀ ∧ ω 0 = ω₀ ∧ v 0 = v₀ ∧
    VDeriv q (qd 0) 0 ∧ VDeriv qd ((Robot.after y ds).fd (q 0) (join (ω 0) (v 0)) (gravIn (R 0)) (qd 0) tau fext).2.2 0 ∧
    MDeriv R (R 0 * cpm (ω 0)) 0 ∧ VDeriv p (R 0 *ᵥ v 0) 0 ∧
    VDeriv (fun s => join (ω s) (v s)) ((Robot.after y ds).fd (q 0) (join (ω 0) (v 0)) (gravIn (R 0)) (qd 0) tau fext).2.1 0 :=
  line_motion_float q₀ qd₀ R₀ p₀ ω₀ v₀ fun q R ω v qd => ((Robot.after y ds).fd q (join ω v) (gravIn R) qd tau fext).2
''' % d)
        else:
            w('''/-- Motions as in `C136_%(r)s_id` exist through every state with any accelerations. -/
example (q₀ qd₀ qdd₀ : Q) (R₀ : M3) (p₀ ω₀ v₀ : V3) (acc : V6) :
    ∃ (q qd : ℝ → Q) (R : ℝ → M3) (p ω v : ℝ → V3), q 0 = q₀ ∧ qd 0 = qd₀ ∧ R 0 = R₀ ∧ p 0 = p₀ ∧ ω 0 = ω₀ ∧ v 0 = v₀ ∧
    VDeriv q (qd 0) 0 ∧ VDeriv qd qdd₀ 0 ∧ MDeriv R (R 0 * cpm (ω 0)) 0 ∧ VDeriv p (R 0 *ᵥ v 0) 0 ∧
    VDeriv (fun s => join (ω s) (v s)) acc 0 :=
  line_motion_float q₀ qd₀ R₀ p₀ ω₀ v₀ fun _ _ _ _ _ => (acc, qdd₀)
''' % d)
    w('end CT.Robots.%s' % robot)
    open(os.path.join(p.OUT, robot + 'Power.lean'), 'w').write('\n'.join(out) + '\n')


if __name__ == '__main__':
    for r in (sys.argv[1:] or g.ROBOTS):
        R = g.generate(r)
        R['robot'] = r
        write(r, R)
