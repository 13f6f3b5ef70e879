import Verif.Model.Trunc

/-!
Generated by tools/gen_sing.py from particle/singularity/UandPNormal.hpp: every `double t = e;` is a `let`,
every `return` the result; `double` is `ℝ`, `pow(x, 2)` is `x ^ 2`. The unused argument `param` is dropped.
-/

set_option linter.unusedVariables false
set_option maxRecDepth 4000
namespace Cafes.Sing

/-- particle/singularity/UandPNormal.hpp:52-60 -/
noncomputable def p_sing_withT_normalMvt2D (X : Fin 2 → ℝ) (H M a U l eps : ℝ) : ℝ :=
  let mu : ℝ := 1;
  let t4 : ℝ := X 1 * X 1;
  let t8 : ℝ := (2 * a + M * t4 + H * t4) ^ 2;
  let t12 : ℝ := (chiTrunc (X 1) l eps);
  -24 / (H + M) / t8 * U * mu * t12

/-- particle/singularity/UandPNormal.hpp:63-79 -/
noncomputable def uz_sing_normalMvt2D (X : Fin 2 → ℝ) (H M a U l eps : ℝ) : ℝ :=
  let mu : ℝ := 1;
  let r : ℝ := X 1;
  let z : ℝ := X 0;
  let t1 : ℝ := r * r;
  let t2 : ℝ := H * t1;
  let t3 : ℝ := 2 * z;
  let t5 : ℝ := M * t1;
  let t6 : ℝ := 2 * a;
  let t10 : ℝ := t6 + t5 + t2;
  let t11 : ℝ := t10 * t10;
  let t15 : ℝ := (chiTrunc (r) l eps);
  -12 * (t2 + t3) * (-t3 + t5 + t6) * U * r / t11 / t10 * t15

/-- particle/singularity/UandPNormal.hpp:83-179 -/
noncomputable def ux_sing_normalMvt2D (X : Fin 2 → ℝ) (H M a U l eps : ℝ) : ℝ :=
  let mu : ℝ := 1;
  let r : ℝ := X 1;
  let z : ℝ := X 0;
  let t1 : ℝ := r * r;
  let t2 : ℝ := H * t1;
  let t3 : ℝ := M * a;
  let t4 : ℝ := z * z;
  let t5 : ℝ := t3 * t4;
  let t8 : ℝ := a * a;
  let t9 : ℝ := t8 * M;
  let t10 : ℝ := t9 * z;
  let t13 : ℝ := t1 * t1;
  let t14 : ℝ := H * t13;
  let t15 : ℝ := M * M;
  let t16 : ℝ := t15 * a;
  let t17 : ℝ := t16 * z;
  let t20 : ℝ := H * H;
  let t21 : ℝ := t20 * t13;
  let t22 : ℝ := t3 * z;
  let t31 : ℝ := t15 * t1;
  let t32 : ℝ := a * t4;
  let t35 : ℝ := t13 * t1;
  let t36 : ℝ := H * t35;
  let t37 : ℝ := t15 * M;
  let t41 : ℝ := t20 * t1;
  let t45 : ℝ := t20 * H;
  let t46 : ℝ := t45 * t13;
  let t51 : ℝ := t45 * t35;
  let t55 : ℝ := t20 * t35;
  let t59 : ℝ := t15 * t15;
  let t61 : ℝ := t13 * t13;
  let t64 : ℝ := t8 * t45;
  let t67 : ℝ := t20 * t20;
  let t68 : ℝ := a * t67;
  let t71 : ℝ := t8 * a;
  let t74 : ℝ := t15 * t61;
  let t89 : ℝ := -24 * t51 * M * z - 48 * t55 * t15 * z - 5 * H * t59 * t61 + 96 * t64 * t13 + 8 * t68 * t35 - 32 * t41 * t71 + 4 * t74 * t45 - 4 * t37 * t61 * t20 + 5 * M * t61 * t67 - 32 * t71 * t15 * t1 - 24 * t8 * t37 * t13;
  let t94 : ℝ := t4 * z;
  let t99 : ℝ := H * a;
  let t100 : ℝ := t99 * t94;
  let t102 : ℝ := t3 * t94;
  let t109 : ℝ := H * t8;
  let t110 : ℝ := t109 * t4;
  let t112 : ℝ := t9 * t4;
  let t114 : ℝ := t8 * t8;
  let t118 : ℝ := t67 * H;
  let t126 : ℝ := a * t20;
  let t133 : ℝ := M * t1;
  let t136 : ℝ := t15 * t13;
  let t139 : ℝ := t37 * t35;
  let t147 : ℝ := t118 * t61 - 16 * M * t114 - t59 * M * t61 + 56 * t3 * t51 + 24 * t126 * t35 * t15 + 48 * t21 * t9 - 64 * H * t71 * t133 - 72 * t109 * t136 - 32 * t99 * t139 + 320 * t2 * M * t94 - 384 * t41 * t32;
  let t155 : ℝ := ((2 * a + t133 + t2)) ^ 2;
  let t156 : ℝ := t155 * t155;
  let t158 : ℝ := 1 / (H + M) / t156;
  let t159 : ℝ := (chiTrunc (r) l eps);
  let t162 : ℝ := (d2chiTrunc (r) l eps);
  let t163 : ℝ := t162 * t13;
  let t166 : ℝ := t61 * t1;
  let t167 : ℝ := t162 * t166;
  let t168 : ℝ := t3 * t45;
  let t173 : ℝ := t162 * t35;
  let t174 : ℝ := H * M;
  let t175 : ℝ := t174 * t94;
  let t186 : ℝ := t162 * t61;
  let t212 : ℝ := t45 * t61;
  let t226 : ℝ := 128 * t163 * t102 - 56 * t167 * t168 + 128 * t163 * t100 + 64 * t173 * t175 - 144 * t173 * t16 * t4 - 36 * t167 * t16 * t20 - 288 * t163 * t112 - 72 * t186 * t9 * t20 + 48 * t173 * t126 * t4 - 96 * t163 * t110 + 24 * t186 * t20 * M * t4 - 24 * t186 * H * t15 * t4 - 192 * t14 * t162 * t71 * z - 24 * H * t166 * t162 * t37 * z - 48 * t212 * t162 * a * z - 192 * t55 * t162 * t8 * z - 24 * t45 * t166 * t162 * M * z;
  let t232 : ℝ := (dchiTrunc (r) l eps);
  let t233 : ℝ := t232 * t1;
  let t236 : ℝ := t232 * t13;
  let t241 : ℝ := t232 * t61;
  let t244 : ℝ := t232 * t8;
  let t245 : ℝ := t244 * t4;
  let t250 : ℝ := t232 * t166;
  let t251 : ℝ := t67 * M;
  let t256 : ℝ := t20 * t94;
  let t259 : ℝ := t15 * t94;
  let t262 : ℝ := t15 * t45;
  let t265 : ℝ := t232 * t4;
  let t274 : ℝ := t232 * t71;
  let t280 : ℝ := t162 * t61 * t13;
  let t283 : ℝ := -48 * t20 * t166 * t162 * t15 * z - 192 * t233 * t100 - 224 * t236 * t175 - 192 * t233 * t102 - 12 * t241 * t168 + 432 * t2 * t245 + 6 * t241 * t68 + 5 * t250 * t251 - 52 * t244 * t51 - 112 * t236 * t256 - 112 * t236 * t259 + 7 * t250 * t262 - 60 * t51 * t265 + 60 * t139 * t265 + 3 * t37 * t166 * t232 * t20 - 120 * t274 * t21 - 20 * t167 * t68 - 10 * t280 * t251;
  let t285 : ℝ := t162 * t1;
  let t323 : ℝ := H * t61;
  let t330 : ℝ := 128 * t285 * t8 * t94 - 56 * t186 * t64 + 32 * t173 * t259 - 14 * t280 * t262 + 32 * t173 * t256 - 192 * t285 * t71 * t4 - 48 * t173 * t71 * t20 - 24 * t186 * t37 * t4 - 6 * t280 * t37 * t20 + 24 * t186 * t45 * t4 + 64 * t244 * t94 - 96 * t274 * t4 + t250 * t118 - 2 * t280 * t118 - 96 * t173 * a * t174 * t4 - 144 * t323 * t162 * t17 - 288 * t36 * t162 * t10;
  let t331 : ℝ := t20 * t61;
  let t339 : ℝ := t244 * z;
  let t343 : ℝ := t232 * a;
  let t344 : ℝ := t343 * z;
  let t350 : ℝ := t343 * t4;
  let t353 : ℝ := t232 * t15;
  let t357 : ℝ := t232 * M;
  let t389 : ℝ := -192 * t331 * t162 * t22 + 336 * t14 * t232 * t5 - 144 * t14 * M * t339 + 72 * t36 * t15 * t344 + 192 * t55 * t232 * t22 + 120 * t21 * t350 + 60 * t36 * t353 * t4 - 60 * t55 * t357 * t4 + 144 * t133 * t245 - 108 * M * t35 * t244 * t20 + 216 * t136 * t350 - 18 * t74 * t343 * t20 + 36 * t323 * t37 * t232 * z + 96 * t21 * t339 + 120 * t51 * t344 + 72 * t331 * t353 * z + 36 * t212 * t357 * z - 288 * t2 * t274 * z;
  U * (-480 * t2 * t5 + 288 * t2 * t10 + 96 * t14 * t17 - 48 * t21 * t22 + 72 * t21 * M * t4 - 72 * t14 * t15 * t4 - 96 * t31 * t32 - 24 * t36 * t37 * z + 288 * t41 * t8 * z - 144 * t46 * a * z + t89 - 8 * a * t59 * t35 + 160 * t41 * t94 + 160 * t31 * t94 - 64 * t100 - 64 * t102 + 72 * t46 * t4 - 72 * t37 * t13 * t4 + 96 * t110 + 96 * t112 - 16 * H * t114 + t147) * t158 * t159 / 2 + U * (t226 + t283 + t330 + t389) * t158 / 2

/-- particle/singularity/UandPNormal.hpp:181-209 -/
noncomputable def dzuz_sing_normalMvt2D (X : Fin 2 → ℝ) (H M a U l eps : ℝ) : ℝ :=
  let mu : ℝ := 1;
  let z : ℝ := X 0;
  let r : ℝ := X 1;
  let t1 : ℝ := r * r;
  let t2 : ℝ := t1 * t1;
  let t3 : ℝ := z * z;
  let t4 : ℝ := t2 * t3;
  let t14 : ℝ := t2 * t1;
  let t15 : ℝ := t14 * H;
  let t16 : ℝ := a * M;
  let t22 : ℝ := H * H;
  let t25 : ℝ := M * M;
  let t29 : ℝ := a * a;
  let t33 : ℝ := H * t2;
  let t39 : ℝ := t2 * t2;
  let t46 : ℝ := 8 * M * t4 + 16 * t1 * a * t3 - 16 * t2 * a * M * z - 8 * t15 * t16 + 8 * H * t4 + 4 * t14 * z * t22 - 4 * t14 * t25 * z - 16 * t1 * t29 * z - 8 * t33 * t29 - 4 * t14 * a * t22 - 2 * t39 * H * t25 - 2 * t39 * M * t22;
  let t50 : ℝ := H * t1;
  let t52 : ℝ := (2 * a + M * t1 + t50) ^ 2;
  let t53 : ℝ := t52 * t52;
  let t54 : ℝ := 1 / t53;
  let t55 : ℝ := (dchiTrunc (r) l eps);
  let t90 : ℝ := -20 * t1 * t3 * M + 8 * t16 * t1 * z + 8 * a * t3 - 8 * t29 * z + 32 * t50 * a * z - 4 * t33 * t16 - 6 * z * t22 * t2 + t15 * t25 + M * t14 * t22 - 12 * t50 * t29 + 6 * a * t22 * t2 + 6 * t25 * t2 * z - 20 * t3 * H * t1;
  let t92 : ℝ := (chiTrunc (r) l eps);
  12 * U * t46 * t54 * t55 + 12 * U * t90 * t54 * t92

/-- particle/singularity/UandPNormal.hpp:212-243 -/
noncomputable def dxux_sing_normalMvt2D (X : Fin 2 → ℝ) (H M a U l eps : ℝ) : ℝ :=
  let mu : ℝ := 1;
  let z : ℝ := X 0;
  let r : ℝ := X 1;
  let t1 : ℝ := r * r;
  let t2 : ℝ := t1 * t1;
  let t3 : ℝ := t2 * t1;
  let t4 : ℝ := t3 * a;
  let t8 : ℝ := t2 * M;
  let t9 : ℝ := a * z;
  let t13 : ℝ := H * H;
  let t16 : ℝ := t2 * t2;
  let t17 : ℝ := M * M;
  let t25 : ℝ := a * a;
  let t30 : ℝ := z * z;
  let t31 : ℝ := t2 * t30;
  let t34 : ℝ := t3 * t17;
  let t45 : ℝ := 8 * t4 * H * M + 16 * t8 * t9 - 4 * t3 * z * t13 + 2 * t16 * t17 * H + 2 * t16 * M * t13 + 8 * t2 * H * t25 + 4 * t4 * t13 - 8 * t31 * H + 4 * t34 * z + 16 * t1 * t25 * z - 16 * t1 * a * t30 - 8 * t31 * M;
  let t48 : ℝ := M * t1;
  let t49 : ℝ := H * t1;
  let t51 : ℝ := (2 * a + t48 + t49) ^ 2;
  let t52 : ℝ := t51 * t51;
  let t53 : ℝ := 1 / t52;
  let t54 : ℝ := (dchiTrunc (r) l eps);
  let t88 : ℝ := -32 * t49 * t9 + 4 * a * H * t8 + 6 * z * t13 * t2 - t34 * H - M * t3 * t13 + 12 * t49 * t25 - 6 * a * t13 * t2 - 6 * t17 * t2 * z + 20 * t30 * H * t1 + 8 * t25 * z - 8 * a * t30 + 20 * t30 * M * t1 - 8 * t48 * t9;
  let t90 : ℝ := (chiTrunc (r) l eps);
  12 * U * t45 * t53 * t54 + 12 * U * t88 * t53 * t90

/-- particle/singularity/UandPNormal.hpp:245-259 -/
noncomputable def dxuz_sing_normalMvt2D (X : Fin 2 → ℝ) (H M a U l eps : ℝ) : ℝ :=
  let mu : ℝ := 1;
  let r : ℝ := X 1;
  let z : ℝ := X 0;
  let t2 : ℝ := r * r;
  let t3 : ℝ := (chiTrunc (r) l eps);
  let t5 : ℝ := M * t2;
  let t6 : ℝ := 2 * a;
  let t7 : ℝ := H * t2;
  let t10 : ℝ := t6 + t5 + t7;
  let t11 : ℝ := t10 * t10;
  24 * U * r * t3 * (4 * z - t5 - t6 + t7) / t11 / t10

/-- particle/singularity/UandPNormal.hpp:261-349 -/
noncomputable def dzux_sing_normalMvt2D (X : Fin 2 → ℝ) (H M a U l eps : ℝ) : ℝ :=
  let mu : ℝ := 1;
  let r : ℝ := X 1;
  let z : ℝ := X 0;
  let t1 : ℝ := r * U;
  let t2 : ℝ := r * r;
  let t3 : ℝ := t2 * M;
  let t4 : ℝ := z * z;
  let t5 : ℝ := t4 * z;
  let t6 : ℝ := a * t5;
  let t9 : ℝ := H * t2;
  let t12 : ℝ := t2 * t2;
  let t13 : ℝ := H * t12;
  let t14 : ℝ := M * t5;
  let t17 : ℝ := a * a;
  let t18 : ℝ := t17 * t4;
  let t21 : ℝ := H * H;
  let t22 : ℝ := a * t21;
  let t23 : ℝ := t12 * t4;
  let t26 : ℝ := t12 * t2;
  let t33 : ℝ := M * M;
  let t34 : ℝ := a * t33;
  let t41 : ℝ := t17 * a;
  let t45 : ℝ := t12 * t12;
  let t46 : ℝ := H * t45;
  let t47 : ℝ := t33 * M;
  let t51 : ℝ := 384 * t3 * t6 + 384 * t9 * t6 + 576 * t13 * t14 - 1248 * t9 * t18 - 528 * t22 * t23 + 120 * M * t26 * t21 * t4 + 96 * t3 * t18 - 336 * t34 * t23 - 120 * t33 * t26 * H * t4 + 1344 * t9 * t41 * z - 24 * t46 * t47 * z;
  let t52 : ℝ := t21 * t45;
  let t53 : ℝ := t33 * z;
  let t56 : ℝ := t21 * H;
  let t57 : ℝ := t56 * t45;
  let t58 : ℝ := M * z;
  let t61 : ℝ := t56 * t26;
  let t62 : ℝ := a * z;
  let t65 : ℝ := t21 * t12;
  let t66 : ℝ := t17 * z;
  let t74 : ℝ := a * M;
  let t78 : ℝ := t26 * H;
  let t81 : ℝ := t41 * H;
  let t82 : ℝ := t12 * M;
  let t85 : ℝ := t17 * M;
  let t86 : ℝ := t26 * t21;
  let t89 : ℝ := a * H;
  let t93 : ℝ := -48 * t52 * t53 - 24 * t57 * t58 - 240 * t61 * t62 + 192 * t65 * t66 - 40 * a * t47 * t46 + 144 * t34 * t52 + 224 * t74 * t57 - 120 * t17 * t33 * t78 - 160 * t81 * t82 + 480 * t85 * t86 - 864 * t89 * t82 * t4;
  let t95 : ℝ := t85 * z;
  let t98 : ℝ := t34 * z;
  let t101 : ℝ := t17 * t17;
  let t109 : ℝ := t41 * t21;
  let t115 : ℝ := t17 * t56;
  let t118 : ℝ := t33 * t33;
  let t122 : ℝ := t21 * t21;
  let t123 : ℝ := a * t122;
  let t126 : ℝ := t45 * t2;
  let t130 : ℝ := 1248 * t13 * t95 + 240 * t78 * t98 - 80 * t3 * t101 - 80 * t9 * t101 - 80 * t41 * t33 * t12 + 448 * t109 * t12 - 40 * t17 * t47 * t26 + 320 * t115 * t26 - 10 * a * t118 * t45 + 50 * t123 * t45 - 5 * t118 * t126 * H;
  let t140 : ℝ := t33 * t12;
  let t152 : ℝ := t122 * H;
  let t155 : ℝ := t17 * t5;
  let t157 : ℝ := t41 * t4;
  let t161 : ℝ := 8 * t47 * t126 * t21 + 32 * t33 * t126 * t56 + 25 * M * t126 * t122 + 288 * t140 * t5 + 288 * t65 * t5 + 120 * t61 * t4 - 120 * t47 * t26 * t4 - t118 * M * t126 + 5 * t152 * t126 - 384 * t155 + 576 * t157 - 32 * t101 * a;
  let t165 : ℝ := 2 * a + t3 + t9;
  let t166 : ℝ := t165 * t165;
  let t167 : ℝ := t166 * t166;
  let t169 : ℝ := 1 / t167 / t165;
  let t171 : ℝ := (dchiTrunc (r) l eps);
  let t178 : ℝ := t21 * t2;
  let t194 : ℝ := t56 * t12;
  let t208 : ℝ := -960 * t9 * t14 - 24 * t74 * t61 + 1440 * t178 * a * t4 - 144 * t65 * M * t4 + 144 * t13 * t33 * t4 - 24 * t86 * t34 + 192 * t85 * t65 - 1440 * t178 * t66 + 288 * t194 * t62 + 48 * t86 * t53 + 24 * t61 * t58 + 24 * H * t47 * t26 * z + 1440 * t9 * t74 * t4;
  let t209 : ℝ := H * M;
  let t217 : ℝ := t74 * z;
  let t220 : ℝ := t89 * t5;
  let t227 : ℝ := t74 * t5;
  let t237 : ℝ := H * t17 * t4;
  let t239 : ℝ := t85 * t4;
  let t245 : ℝ := -480 * t209 * t2 * t17 * z - 336 * t89 * t140 * z - 48 * t65 * t217 + 576 * t220 - 480 * t178 * t5 - 480 * t33 * t2 * t5 + 576 * t227 - 144 * t194 * t17 - 144 * t194 * t4 + 144 * t47 * t12 * t4 - 1152 * t237 - 576 * t239 + 480 * t178 * t41 + 576 * t81 * z;
  let t248 : ℝ := (chiTrunc (r) l eps);
  let t251 : ℝ := (d2chiTrunc (r) l eps);
  let t252 : ℝ := t2 * t251;
  let t255 : ℝ := t45 * t251;
  let t258 : ℝ := t26 * t251;
  let t263 : ℝ := t45 * t12 * t251;
  let t270 : ℝ := t126 * t251;
  let t302 : ℝ := t12 * t251;
  let t305 : ℝ := -256 * t252 * t155 + 112 * t255 * t115 - 64 * t258 * t33 * t5 + 28 * t263 * t33 * t56 - 64 * t258 * t21 * t5 + 40 * t270 * t123 + 20 * t263 * t122 * M - 48 * t255 * t56 * t4 + 48 * t255 * t47 * t4 + 12 * t263 * t47 * t21 + 384 * t252 * t157 + 96 * t258 * t109 + 192 * t258 * a * t209 * t4 + 576 * t78 * t251 * t95 + 288 * t46 * t251 * t98 + 384 * t52 * t251 * t217 - 256 * t302 * t227;
  let t367 : ℝ := 112 * t270 * t74 * t56 - 256 * t302 * t220 - 128 * t258 * t209 * t5 + 192 * t302 * t237 - 96 * t258 * t22 * t4 + 48 * t255 * t33 * H * t4 - 48 * t255 * M * t21 * t4 + 576 * t302 * t239 + 144 * t255 * t85 * t21 + 288 * t258 * t34 * t4 + 72 * t270 * t34 * t21 + 384 * t13 * t251 * t41 * z + 384 * t86 * t251 * t17 * z + 96 * t57 * t251 * a * z + 48 * H * t126 * t251 * t47 * z + 96 * t21 * t126 * t251 * t33 * z + 48 * t56 * t126 * t251 * M * z + 4 * t263 * t152;
  t1 * (t51 + t93 + t130 + t161) * t169 * t171 + t1 * (t208 + t245) * t169 * t248 + t1 * (t305 + t367) * t169

/-- particle/singularity/UandPNormal.hpp:350-354 -/
noncomputable def DIVCART_normalMvt2D (X : Fin 2 → ℝ) (H M d U l eps : ℝ) : ℝ :=
  (dxux_sing_normalMvt2D X H M d U l eps) + (dzuz_sing_normalMvt2D X H M d U l eps)

/-- particle/singularity/UandPNormal.hpp:368-378 -/
noncomputable def p_sing_withT_normalMvt3D (X : Fin 3 → ℝ) (H M a U l eps : ℝ) : ℝ :=
  let mu : ℝ := 1;
  let t2 : ℝ := X 0 * X 0+X 1 * X 1;
  let r : ℝ := Real.sqrt (t2);
  let t3 : ℝ := (chiTrunc (r) l eps);
  let t11 : ℝ := (t2 * H + t2 * M + 2 * a) ^ 2;
  -12 / t11 / (H + M) * t3 * U * mu

/-- particle/singularity/UandPNormal.hpp:381-405 -/
noncomputable def ur_sing_normalMvt3D (X : Fin 3 → ℝ) (H M a U l eps : ℝ) : ℝ :=
  let mu : ℝ := 1;
  let t2 : ℝ := X 0 * X 0+X 1 * X 1;
  let r : ℝ := Real.sqrt (t2);
  let z : ℝ := X 2;
  let t1 : ℝ := U * r;
  let t3 : ℝ := H * t2;
  let t4 : ℝ := M * t2;
  let t5 : ℝ := 2 * a;
  let t6 : ℝ := -t3 - t4 - t5;
  let t7 : ℝ := 2 * z;
  let t8 : ℝ := t4 + t5 - t7;
  let t11 : ℝ := t3 + t7;
  let t12 : ℝ := (dchiTrunc (r) l eps);
  let t14 : ℝ := H + M;
  let t15 : ℝ := 1 / t14;
  let t16 : ℝ := -t6;
  let t17 : ℝ := t16 * t16;
  let t19 : ℝ := 1 / t17 / t16;
  let t27 : ℝ := (chiTrunc (r) l eps);
  -3 * t1 * t11 * t12 * t15 * t19 * t6 * t8 - 6 * t1 * t11 * t14 * t15 * t19 * t27 * t8

/-- particle/singularity/UandPNormal.hpp:407-488 -/
noncomputable def uz_sing_normalMvt3D (X : Fin 3 → ℝ) (H M a U l eps : ℝ) : ℝ :=
  let mu : ℝ := 1;
  let z : ℝ := X 2;
  let t4 : ℝ := X 0 * X 0+X 1 * X 1;
  let r : ℝ := Real.sqrt (t4);
  let t1 : ℝ := H * H;
  let t2 : ℝ := t1 * t1;
  let t3 : ℝ := t2 * H;
  let t5 : ℝ := t4 * t4;
  let t6 : ℝ := t5 * t5;
  let t7 : ℝ := t6 * t5;
  let t9 : ℝ := t2 * M;
  let t12 : ℝ := t1 * H;
  let t13 : ℝ := M * M;
  let t14 : ℝ := t12 * t13;
  let t17 : ℝ := t13 * M;
  let t18 : ℝ := t1 * t17;
  let t21 : ℝ := t2 * a;
  let t22 : ℝ := t6 * t4;
  let t25 : ℝ := t12 * M;
  let t26 : ℝ := a * t22;
  let t29 : ℝ := t22 * z;
  let t32 : ℝ := t1 * t13;
  let t37 : ℝ := H * t17;
  let t40 : ℝ := a * a;
  let t41 : ℝ := t12 * t40;
  let t44 : ℝ := t12 * a;
  let t45 : ℝ := t6 * z;
  let t49 : ℝ := z * z;
  let t52 : ℝ := t1 * M;
  let t56 : ℝ := a * t6;
  let t57 : ℝ := t56 * z;
  let t60 : ℝ := t6 * t49;
  let t63 : ℝ := H * t13;
  let t66 : ℝ := 12 * t12 * t6 * t49 - 36 * t52 * t40 * t6 - 7 * t14 * t7 - 3 * t18 * t7 - 10 * t21 * t22 - 28 * t25 * t26 - 12 * t25 * t29 - 18 * t32 * t26 - 24 * t32 * t29 - 12 * t37 * t29 - t3 * t7 - 28 * t41 * t6 - 24 * t44 * t45 - 96 * t52 * t57 + 12 * t52 * t60 - 72 * t63 * t57 - 5 * t9 * t7;
  let t72 : ℝ := t40 * a;
  let t73 : ℝ := t1 * t72;
  let t74 : ℝ := t5 * t4;
  let t77 : ℝ := t1 * t40;
  let t78 : ℝ := t74 * z;
  let t81 : ℝ := t1 * a;
  let t82 : ℝ := t74 * t49;
  let t86 : ℝ := t49 * z;
  let t89 : ℝ := H * M;
  let t90 : ℝ := t40 * t74;
  let t94 : ℝ := a * t74;
  let t101 : ℝ := t13 * a;
  let t107 : ℝ := H * t72;
  let t108 : ℝ := t5 * z;
  let t111 : ℝ := H * t40;
  let t112 : ℝ := t5 * t49;
  let t115 : ℝ := H * a;
  let t116 : ℝ := t5 * t86;
  let t119 : ℝ := M * t40;
  let t122 : ℝ := M * a;
  let t125 : ℝ := t72 * t4;
  let t128 : ℝ := t40 * t4;
  let t131 : ℝ := 16 * t1 * t74 * t86 + 16 * t13 * t74 * t86 - 12 * t17 * t49 * t6 - 48 * t49 * t89 * t94 + 32 * t74 * t86 * t89 - 144 * t89 * t90 * z - 72 * t101 * t82 - 96 * t107 * t108 - 48 * t111 * t112 - 144 * t112 * t119 + 64 * t115 * t116 + 64 * t116 * t122 - 96 * t125 * t49 + 64 * t128 * t86 - 12 * t60 * t63 - 24 * t73 * t74 - 96 * t77 * t78 + 24 * t81 * t82;
  let t134 : ℝ := (d2chiTrunc (r) l eps);
  let t136 : ℝ := 1 / (H + M);
  let t142 : ℝ := (H * t4 + M * t4 + 2 * a) ^ 2;
  let t143 : ℝ := t142 * t142;
  let t144 : ℝ := 1 / t143;
  let t178 : ℝ := -24 * t12 * t49 * t74 + 24 * t17 * t49 * t74 + 48 * t52 * t94 * z - 2 * t21 * t6 + 12 * t25 * t45 - 20 * t25 * t56 + 24 * t32 * t45 - 18 * t32 * t56 + 12 * t37 * t45 - 40 * t41 * t74 + 48 * t44 * t78 - 24 * t52 * t82 - 72 * t52 * t90 + 24 * t63 * t82;
  let t186 : ℝ := t40 * t5;
  let t190 : ℝ := a * t5;
  let t201 : ℝ := t4 * z;
  let t204 : ℝ := t4 * t49;
  let t207 : ℝ := t4 * t86;
  let t216 : ℝ := -48 * t1 * t5 * t86 - 48 * t13 * t5 * t86 - 144 * t186 * t89 * z + 144 * t190 * t49 * t89 + 72 * t101 * t112 - 192 * t107 * t201 + 192 * t111 * t204 + 72 * t112 * t81 - 64 * t115 * t207 - 96 * t116 * t89 - 64 * t122 * t207 + 64 * t40 * t86 - 96 * t49 * t72 - 72 * t5 * t73;
  let t219 : ℝ := (dchiTrunc (r) l eps);
  let t230 : ℝ := t13 * t13;
  let t252 : ℝ := t190 * z;
  let t263 : ℝ := -5 * H * t230 * t6 - M * t230 * t6 - 8 * a * t230 * t74 + 24 * t12 * t49 * t5 - 48 * t108 * t44 + 24 * t112 * t52 - 24 * t112 * t63 + 4 * t14 * t6 - 4 * t18 * t6 - 72 * t186 * t63 + 8 * t21 * t74 + 32 * t25 * t94 + 48 * t252 * t52 + 96 * t252 * t63 + t3 * t6 - 32 * t37 * t94 + 48 * t41 * t5 + 5 * t6 * t9;
  let t296 : ℝ := t40 * t40;
  let t309 : ℝ := -192 * a * t4 * t49 * t89 + 64 * t1 * t4 * t86 + 192 * t128 * t89 * z - 32 * t13 * t4 * t72 + 64 * t13 * t4 * t86 - 24 * t17 * t40 * t5 - 24 * t17 * t49 * t5 - 16 * H * t296 - 16 * M * t296 + 96 * t111 * t49 - 64 * t115 * t86 + 96 * t119 * t49 - 64 * t122 * t86 - 64 * t125 * t89 + 192 * t201 * t77 - 192 * t204 * t81 + 128 * t207 * t89 - 32 * t4 * t73;
  let t313 : ℝ := (chiTrunc (r) l eps);
  U * (t131 + t66) * t134 * t136 * t144 / 2 + U * (t216 + t178) * t219 * t136 * t144 / 2 + U * (t309 + t263) * t136 * t144 * t313 / 2

/-- particle/singularity/UandPNormal.hpp:490-547 -/
noncomputable def drur_sing_normalMvt3D (X : Fin 3 → ℝ) (H M a U l eps : ℝ) : ℝ :=
  let mu : ℝ := 1;
  let z : ℝ := X 2;
  let t4 : ℝ := X 0 * X 0+X 1 * X 1;
  let r : ℝ := Real.sqrt (t4);
  let t1 : ℝ := H * H;
  let t2 : ℝ := t1 * H;
  let t3 : ℝ := t2 * M;
  let t5 : ℝ := t4 * t4;
  let t6 : ℝ := t5 * t5;
  let t7 : ℝ := t6 * t4;
  let t10 : ℝ := M * M;
  let t11 : ℝ := t1 * t10;
  let t14 : ℝ := t10 * M;
  let t15 : ℝ := H * t14;
  let t18 : ℝ := t2 * a;
  let t24 : ℝ := t1 * M;
  let t25 : ℝ := a * t6;
  let t28 : ℝ := t6 * z;
  let t31 : ℝ := H * t10;
  let t39 : ℝ := a * a;
  let t40 : ℝ := t1 * t39;
  let t41 : ℝ := t5 * t4;
  let t44 : ℝ := t1 * a;
  let t45 : ℝ := t41 * z;
  let t48 : ℝ := 4 * t14 * t6 * z - 4 * t2 * t6 * z + 4 * t11 * t7 + 2 * t15 * t7 + 4 * t18 * t6 + 16 * t24 * t25 - 4 * t24 * t28 + 12 * t31 * t25 + 4 * t31 * t28 + 2 * t3 * t7 + 16 * t40 * t41 - 8 * t44 * t45;
  let t50 : ℝ := z * z;
  let t53 : ℝ := H * M;
  let t57 : ℝ := a * t41;
  let t64 : ℝ := t10 * a;
  let t70 : ℝ := t39 * a;
  let t71 : ℝ := H * t70;
  let t74 : ℝ := H * t39;
  let t75 : ℝ := t5 * z;
  let t78 : ℝ := H * a;
  let t79 : ℝ := t5 * t50;
  let t82 : ℝ := M * t39;
  let t85 : ℝ := M * a;
  let t91 : ℝ := t39 * t4;
  let t94 : ℝ := -8 * t1 * t41 * t50 - 8 * t10 * t41 * t50 + 24 * t53 * t39 * t41 + 32 * t70 * t4 * z - 16 * t53 * t41 * t50 + 16 * t53 * t57 * z + 24 * t64 * t45 + 16 * t71 * t5 - 32 * t91 * t50 + 16 * t74 * t75 + 48 * t82 * t75 - 32 * t78 * t79 - 32 * t85 * t79;
  let t97 : ℝ := (d2chiTrunc (r) l eps);
  let t99 : ℝ := 1 / (H + M);
  let t105 : ℝ := (H * t4 + M * t4 + 2 * a) ^ 2;
  let t106 : ℝ := t105 * t105;
  let t107 : ℝ := 1 / t106;
  let t136 : ℝ := -10 * t14 * t41 * z + 10 * t2 * t41 * z - 6 * t11 * t6 - 3 * t15 * t6 - 10 * t18 * t41 + 10 * t24 * t45 - 16 * t24 * t57 - 3 * t3 * t6 - 10 * t31 * t45 - 6 * t31 * t57 - 8 * t40 * t5 - 20 * t44 * t75;
  let t143 : ℝ := a * t5;
  let t156 : ℝ := t4 * z;
  let t159 : ℝ := t4 * t50;
  let t170 : ℝ := 28 * t1 * t5 * t50 + 28 * t10 * t5 * t50 - 56 * t53 * t143 * z + 12 * t53 * t39 * t5 - 72 * t74 * t156 - 24 * t82 * t156 + 48 * t78 * t159 + 48 * t85 * t159 - 16 * t39 * t50 + 24 * t71 * t4 + 56 * t53 * t79 - 36 * t64 * t75 + 16 * t70 * z;
  let t173 : ℝ := (dchiTrunc (r) l eps);
  let t201 : ℝ := 12 * t14 * t5 * z - 12 * t2 * t5 * z + 4 * t11 * t41 + 4 * t24 * t143 - 8 * t31 * t143 + 2 * t15 * t41 + 12 * t18 * t5 - 12 * t24 * t75 + 2 * t3 * t41 + 12 * t31 * t75 - 24 * t40 * t4;
  let t228 : ℝ := 80 * t53 * a * t4 * z - 40 * t1 * t4 * t50 - 40 * t10 * t4 * t50 + 64 * t44 * t156 + 16 * t64 * t156 - 80 * t53 * t159 + 16 * t78 * t50 + 16 * t85 * t50 - 24 * t53 * t91 - 16 * t74 * z - 16 * t82 * z;
  let t232 : ℝ := (chiTrunc (r) l eps);
  3 * U * (t94 + t48) * t97 * t99 * t107 + 3 * U * (t170 + t136) * t173 * t99 * t107 + 3 * U * (t228 + t201) * t99 * t107 * t232

/-- particle/singularity/UandPNormal.hpp:549-565 -/
noncomputable def dzur_sing_normalMvt3D (X : Fin 3 → ℝ) (H M a U l eps : ℝ) : ℝ :=
  let mu : ℝ := 1;
  let z : ℝ := X 2;
  let t2 : ℝ := X 0 * X 0+X 1 * X 1;
  let r : ℝ := Real.sqrt (t2);
  let t3 : ℝ := H * t2;
  let t4 : ℝ := M * t2;
  let t5 : ℝ := 2 * a;
  let t9 : ℝ := H + M;
  let t11 : ℝ := t3 + t4 + t5;
  let t12 : ℝ := t11 * t11;
  let t17 : ℝ := (chiTrunc (r) l eps);
  let t20 : ℝ := (dchiTrunc (r) l eps);
  6 * r * U * (t3 - t4 - t5 + 4 * z) / t9 / t12 / t11 * (-t11 * t20 + 2 * t17 * t9)

/-- particle/singularity/UandPNormal.hpp:567-693 -/
noncomputable def druz_sing_normalMvt3D (X : Fin 3 → ℝ) (H M a U l eps : ℝ) : ℝ :=
  let mu : ℝ := 1;
  let z : ℝ := X 2;
  let t5 : ℝ := X 0 * X 0+X 1 * X 1;
  let r : ℝ := Real.sqrt (t5);
  let t1 : ℝ := r * U;
  let t2 : ℝ := H * H;
  let t3 : ℝ := t2 * t2;
  let t4 : ℝ := t3 * t2;
  let t6 : ℝ := t5 * t5;
  let t7 : ℝ := t6 * t5;
  let t8 : ℝ := t6 * t6;
  let t9 : ℝ := t8 * t7;
  let t11 : ℝ := t3 * H;
  let t12 : ℝ := t11 * M;
  let t15 : ℝ := M * M;
  let t16 : ℝ := t3 * t15;
  let t19 : ℝ := t2 * H;
  let t20 : ℝ := t15 * M;
  let t21 : ℝ := t19 * t20;
  let t24 : ℝ := t15 * t15;
  let t25 : ℝ := t2 * t24;
  let t28 : ℝ := t11 * a;
  let t29 : ℝ := t8 * t6;
  let t32 : ℝ := t3 * M;
  let t33 : ℝ := a * t29;
  let t36 : ℝ := t29 * z;
  let t39 : ℝ := t19 * t15;
  let t44 : ℝ := t2 * t20;
  let t49 : ℝ := 6 * t12 * t9 + 12 * t16 * t9 + 10 * t21 * t9 + 3 * t25 * t9 + 12 * t28 * t29 + 48 * t32 * t33 + 12 * t32 * t36 + 60 * t39 * t33 + 24 * t44 * t33 + 36 * t39 * t36 + 36 * t44 * t36 + t4 * t9;
  let t50 : ℝ := H * t24;
  let t53 : ℝ := a * a;
  let t54 : ℝ := t3 * t53;
  let t55 : ℝ := t8 * t5;
  let t58 : ℝ := t3 * a;
  let t63 : ℝ := z * z;
  let t66 : ℝ := t19 * M;
  let t67 : ℝ := t53 * t55;
  let t70 : ℝ := a * t55;
  let t71 : ℝ := t70 * z;
  let t74 : ℝ := t55 * t63;
  let t77 : ℝ := t2 * t15;
  let t82 : ℝ := H * t20;
  let t90 : ℝ := t53 * a;
  let t91 : ℝ := t19 * t90;
  let t94 : ℝ := 12 * t24 * t55 * t63 - 12 * t3 * t55 * t63 + 24 * t58 * t55 * z + 12 * t50 * t36 + 48 * t54 * t55 + 120 * t66 * t67 + 144 * t66 * t71 - 24 * t66 * t74 + 72 * t77 * t67 + 216 * t77 * t71 + 96 * t82 * t71 + 24 * t82 * t74 + 80 * t91 * t8;
  let t96 : ℝ := t19 * t53;
  let t97 : ℝ := t8 * z;
  let t100 : ℝ := t19 * a;
  let t101 : ℝ := t8 * t63;
  let t105 : ℝ := t63 * z;
  let t108 : ℝ := t2 * M;
  let t112 : ℝ := t53 * t8;
  let t113 : ℝ := t112 * z;
  let t116 : ℝ := t8 * t105;
  let t119 : ℝ := H * t15;
  let t122 : ℝ := a * t8;
  let t128 : ℝ := t20 * a;
  let t134 : ℝ := t53 * t53;
  let t135 : ℝ := t2 * t134;
  let t138 : ℝ := t2 * t90;
  let t139 : ℝ := t7 * z;
  let t142 : ℝ := -16 * t19 * t8 * t105 - 16 * t20 * t8 * t105 + 96 * t108 * t90 * t8 + 144 * t119 * t122 * t63 - 48 * t100 * t101 + 96 * t128 * t101 + 432 * t108 * t113 - 48 * t108 * t116 + 288 * t119 * t113 - 48 * t119 * t116 + 48 * t135 * t7 + 288 * t138 * t139 + 144 * t96 * t97;
  let t143 : ℝ := t2 * a;
  let t144 : ℝ := t7 * t105;
  let t147 : ℝ := H * M;
  let t148 : ℝ := t90 * t7;
  let t152 : ℝ := t53 * t7;
  let t156 : ℝ := a * t7;
  let t160 : ℝ := t15 * t53;
  let t161 : ℝ := t7 * t63;
  let t164 : ℝ := t15 * a;
  let t167 : ℝ := H * t134;
  let t168 : ℝ := t6 * z;
  let t171 : ℝ := H * t90;
  let t172 : ℝ := t6 * t63;
  let t175 : ℝ := H * t53;
  let t176 : ℝ := t6 * t105;
  let t179 : ℝ := M * t90;
  let t182 : ℝ := M * t53;
  let t185 : ℝ := t134 * t5;
  let t188 : ℝ := t90 * t5;
  let t191 : ℝ := -192 * t147 * t156 * t105 + 384 * t147 * t148 * z + 288 * t147 * t152 * t63 - 128 * t188 * t105 - 96 * t143 * t144 - 96 * t164 * t144 + 288 * t160 * t161 + 192 * t167 * t168 + 192 * t171 * t172 + 384 * t179 * t172 - 192 * t175 * t176 - 192 * t182 * t176 + 192 * t185 * t63;
  let t195 : ℝ := (d3chiTrunc (r) l eps);
  let t197 : ℝ := 1 / (H + M);
  let t202 : ℝ := H * t5 + M * t5 + 2 * a;
  let t203 : ℝ := t202 * t202;
  let t204 : ℝ := t203 * t203;
  let t206 : ℝ := 1 / t204 / t202;
  let t231 : ℝ := 12 * t12 * t29 + 24 * t16 * t29 + 20 * t21 * t29 + 6 * t25 * t29 + 24 * t28 * t55 + 2 * t4 * t29 + 120 * t32 * t70 + 168 * t39 * t70 + 72 * t44 * t70 + 144 * t54 * t8 - 48 * t58 * t97;
  let t241 : ℝ := t122 * z;
  let t258 : ℝ := 64 * t19 * t7 * t105 - 24 * t24 * t8 * t63 + 24 * t3 * t8 * t63 - 96 * t100 * t161 + 48 * t66 * t101 - 48 * t82 * t101 + 432 * t66 * t112 + 288 * t77 * t112 + 144 * t77 * t241 + 96 * t82 * t241 + 352 * t91 * t7;
  let t262 : ℝ := t152 * z;
  let t265 : ℝ := t156 * t63;
  let t285 : ℝ := 64 * t20 * t7 * t105 + 192 * t108 * t144 + 480 * t108 * t148 + 576 * t108 * t262 - 288 * t108 * t265 + 192 * t119 * t144 + 576 * t119 * t262 - 288 * t119 * t265 - 96 * t128 * t161 + 288 * t135 * t6 + 576 * t138 * t168;
  let t286 : ℝ := t2 * t53;
  let t291 : ℝ := t90 * t6;
  let t295 : ℝ := t53 * t6;
  let t299 : ℝ := a * t6;
  let t305 : ℝ := t5 * z;
  let t308 : ℝ := t5 * t63;
  let t317 : ℝ := 384 * t147 * t299 * t105 + 1152 * t147 * t291 * z - 576 * t147 * t295 * t63 - 256 * t90 * t105 + 384 * t134 * t63 + 192 * t143 * t176 + 192 * t164 * t176 + 768 * t167 * t305 - 384 * t171 * t308 - 576 * t286 * t172 + 384 * t179 * t308;
  let t321 : ℝ := (d2chiTrunc (r) l eps);
  let t332 : ℝ := t24 * M;
  let t355 : ℝ := 6 * H * t332 * t55 + 10 * t332 * a * t8 + t24 * t15 * t55 - 6 * t12 * t55 - 50 * t32 * t122 - 40 * t39 * t122 + 40 * t44 * t122 + 50 * t50 * t122 + 96 * t58 * t139 - 9 * t16 * t55 + 9 * t25 * t55 - 10 * t28 * t8 - t4 * t55 - 88 * t54 * t7;
  let t365 : ℝ := t156 * z;
  let t389 : ℝ := -160 * t19 * t6 * t105 + 40 * t24 * t53 * t7 + 48 * t24 * t7 * t63 - 48 * t3 * t7 * t63 + 432 * t100 * t172 - 64 * t66 * t152 + 144 * t77 * t152 + 160 * t82 * t152 - 96 * t66 * t161 + 96 * t82 * t161 - 384 * t96 * t168 - 288 * t77 * t365 - 192 * t82 * t365 + 32 * t91 * t6;
  let t393 : ℝ := t295 * z;
  let t396 : ℝ := t299 * t63;
  let t423 : ℝ := -160 * t20 * t6 * t105 + 80 * t20 * t90 * t6 - 480 * t108 * t176 + 384 * t108 * t291 - 1056 * t108 * t393 + 912 * t108 * t396 - 480 * t119 * t176 + 240 * t119 * t291 - 672 * t119 * t393 + 528 * t119 * t396 + 48 * t128 * t172 + 368 * t135 * t5 - 960 * t138 * t305 + 576 * t286 * t308;
  let t424 : ℝ := t5 * t105;
  let t432 : ℝ := t53 * t5;
  let t436 : ℝ := a * t5;
  let t447 : ℝ := t134 * a;
  let t462 : ℝ := -128 * t147 * t436 * t105 + 80 * t15 * t134 * t5 - 384 * t147 * t188 * z + 192 * t147 * t432 * t63 + 32 * H * t447 + 32 * M * t447 + 512 * t175 * t105 + 512 * t182 * t105 - 64 * t143 * t424 + 160 * t147 * t185 - 384 * t160 * t308 - 64 * t164 * t424 + 384 * t167 * z - 960 * t171 * t63 - 576 * t179 * t63;
  let t466 : ℝ := (dchiTrunc (r) l eps);
  let t483 : ℝ := t299 * z;
  let t504 : ℝ := 192 * t19 * t5 * t105 - 48 * t24 * t6 * t63 + 48 * t3 * t6 * t63 - 672 * t100 * t308 - 288 * t108 * t188 - 96 * t58 * t168 + 96 * t66 * t172 - 96 * t82 * t172 - 96 * t66 * t295 - 144 * t77 * t295 + 768 * t96 * t305 + 288 * t77 * t483 + 192 * t82 * t483 - 288 * t91 * t5 + 48 * t54 * t6;
  let t505 : ℝ := t432 * z;
  let t508 : ℝ := t436 * t63;
  let t543 : ℝ := -768 * t147 * a * t105 + 192 * t20 * t5 * t105 + 1152 * t147 * t53 * t63 - 384 * t147 * t90 * z - 384 * t143 * t105 - 384 * t164 * t105 + 576 * t108 * t424 + 960 * t108 * t505 - 1248 * t108 * t508 + 576 * t119 * t424 + 192 * t119 * t505 - 480 * t119 * t508 + 96 * t128 * t308 - 384 * t138 * z + 384 * t160 * t63 + 768 * t286 * t63;
  let t547 : ℝ := (chiTrunc (r) l eps);
  -t1 * (t191 + t142 + t94 + t49) * t195 * t197 * t206 - t1 * (t317 + t285 + t258 + t231) * t321 * t197 * t206 - t1 * (t462 + t423 + t389 + t355) * t466 * t197 * t206 - t1 * (t543 + t504) * t197 * t206 * t547

/-- particle/singularity/UandPNormal.hpp:703-712 -/
noncomputable def ux_sing_normalMvt3D (X : Fin 3 → ℝ) (H M a U l eps : ℝ) : ℝ :=
  let r2 : ℝ := X 0 * X 0+X 1 * X 1;
  let r : ℝ := Real.sqrt (r2);
  if r2 ≠ 0 then (ur_sing_normalMvt3D X H M a U l eps)*X 0/r else (ur_sing_normalMvt3D X H M a U l eps)

/-- particle/singularity/UandPNormal.hpp:714-723 -/
noncomputable def uy_sing_normalMvt3D (X : Fin 3 → ℝ) (H M a U l eps : ℝ) : ℝ :=
  let r2 : ℝ := X 0 * X 0+X 1 * X 1;
  let r : ℝ := Real.sqrt (r2);
  if r2 ≠ 0 then (ur_sing_normalMvt3D X H M a U l eps)*X 1/r else 0

/-- particle/singularity/UandPNormal.hpp:733-743 -/
noncomputable def dxux_sing_normalMvt3D (X : Fin 3 → ℝ) (H M a U l eps : ℝ) : ℝ :=
  let r2 : ℝ := X 0 * X 0+X 1 * X 1;
  let r : ℝ := Real.sqrt (r2);
  if r2 ≠ 0 then (drur_sing_normalMvt3D X H M a U l eps)*X 0 * X 0/r2 + (ur_sing_normalMvt3D X H M a U l eps)*X 1 * X 1/r2/r else 0

/-- particle/singularity/UandPNormal.hpp:745-755 -/
noncomputable def dyux_sing_normalMvt3D (X : Fin 3 → ℝ) (H M a U l eps : ℝ) : ℝ :=
  let r2 : ℝ := X 0 * X 0+X 1 * X 1;
  let r : ℝ := Real.sqrt (r2);
  if r2 ≠ 0 then (drur_sing_normalMvt3D X H M a U l eps)*X 0 * X 1/r2 - (ur_sing_normalMvt3D X H M a U l eps)*X 0 * X 1/r2/r else 0

/-- particle/singularity/UandPNormal.hpp:757-766 -/
noncomputable def dzux_sing_normalMvt3D (X : Fin 3 → ℝ) (H M a U l eps : ℝ) : ℝ :=
  let r2 : ℝ := X 0 * X 0+X 1 * X 1;
  let r : ℝ := Real.sqrt (r2);
  if r2 ≠ 0 then (dzur_sing_normalMvt3D X H M a U l eps)*X 0/r else (dzur_sing_normalMvt3D X H M a U l eps)

/-- particle/singularity/UandPNormal.hpp:768-778 -/
noncomputable def dxuy_sing_normalMvt3D (X : Fin 3 → ℝ) (H M a U l eps : ℝ) : ℝ :=
  let r2 : ℝ := X 0 * X 0+X 1 * X 1;
  let r : ℝ := Real.sqrt (r2);
  if r2 ≠ 0 then (drur_sing_normalMvt3D X H M a U l eps)*X 0 * X 1/r2 - (ur_sing_normalMvt3D X H M a U l eps)*X 0 * X 1/r2/r else 0

/-- particle/singularity/UandPNormal.hpp:780-790 -/
noncomputable def dyuy_sing_normalMvt3D (X : Fin 3 → ℝ) (H M a U l eps : ℝ) : ℝ :=
  let r2 : ℝ := X 0 * X 0+X 1 * X 1;
  let r : ℝ := Real.sqrt (r2);
  if r2 ≠ 0 then (drur_sing_normalMvt3D X H M a U l eps)*X 1 * X 1/r2 + (ur_sing_normalMvt3D X H M a U l eps)*X 0 * X 0/r2/r else 0

/-- particle/singularity/UandPNormal.hpp:792-801 -/
noncomputable def dzuy_sing_normalMvt3D (X : Fin 3 → ℝ) (H M a U l eps : ℝ) : ℝ :=
  let r2 : ℝ := X 0 * X 0+X 1 * X 1;
  let r : ℝ := Real.sqrt (r2);
  if r2 ≠ 0 then (dzur_sing_normalMvt3D X H M a U l eps)*X 1/r else 0

/-- particle/singularity/UandPNormal.hpp:803-812 -/
noncomputable def dxuz_sing_normalMvt3D (X : Fin 3 → ℝ) (H M a U l eps : ℝ) : ℝ :=
  let r2 : ℝ := X 0 * X 0+X 1 * X 1;
  let r : ℝ := Real.sqrt (r2);
  if r2 ≠ 0 then (druz_sing_normalMvt3D X H M a U l eps)*X 0/r else 0

/-- particle/singularity/UandPNormal.hpp:815-824 -/
noncomputable def dyuz_sing_normalMvt3D (X : Fin 3 → ℝ) (H M a U l eps : ℝ) : ℝ :=
  let r2 : ℝ := X 0 * X 0+X 1 * X 1;
  let r : ℝ := Real.sqrt (r2);
  if r2 ≠ 0 then (druz_sing_normalMvt3D X H M a U l eps)*X 1/r else 0

/-- particle/singularity/UandPNormal.hpp:826-882 -/
noncomputable def dzuz_sing_normalMvt3D (X : Fin 3 → ℝ) (H M a U l eps : ℝ) : ℝ :=
  let mu : ℝ := 1;
  let z : ℝ := X 2;
  let t4 : ℝ := X 0 * X 0+X 1 * X 1;
  let r : ℝ := Real.sqrt (t4);
  let t1 : ℝ := H * H;
  let t2 : ℝ := t1 * H;
  let t3 : ℝ := t2 * M;
  let t5 : ℝ := t4 * t4;
  let t6 : ℝ := t5 * t5;
  let t7 : ℝ := t6 * t4;
  let t9 : ℝ := M * M;
  let t10 : ℝ := t1 * t9;
  let t13 : ℝ := t9 * M;
  let t14 : ℝ := H * t13;
  let t16 : ℝ := t2 * a;
  let t22 : ℝ := t1 * M;
  let t23 : ℝ := a * t6;
  let t26 : ℝ := t6 * z;
  let t29 : ℝ := H * t9;
  let t37 : ℝ := a * a;
  let t38 : ℝ := t1 * t37;
  let t39 : ℝ := t5 * t4;
  let t42 : ℝ := t1 * a;
  let t43 : ℝ := t39 * z;
  let t46 : ℝ := 2 * t13 * t6 * z - 2 * t2 * t6 * z + 2 * t10 * t7 + t14 * t7 + 2 * t16 * t6 + 8 * t22 * t23 - 2 * t22 * t26 + 6 * t29 * t23 + 2 * t29 * t26 + t3 * t7 + 8 * t38 * t39 - 4 * t42 * t43;
  let t48 : ℝ := z * z;
  let t51 : ℝ := H * M;
  let t55 : ℝ := a * t39;
  let t62 : ℝ := t9 * a;
  let t68 : ℝ := t37 * a;
  let t69 : ℝ := H * t68;
  let t72 : ℝ := H * t37;
  let t73 : ℝ := t5 * z;
  let t76 : ℝ := H * a;
  let t77 : ℝ := t5 * t48;
  let t80 : ℝ := M * t37;
  let t83 : ℝ := M * a;
  let t89 : ℝ := t37 * t4;
  let t92 : ℝ := -4 * t1 * t39 * t48 + 12 * t51 * t37 * t39 - 8 * t51 * t39 * t48 - 4 * t9 * t39 * t48 + 16 * t68 * t4 * z + 8 * t51 * t55 * z + 12 * t62 * t43 - 16 * t89 * t48 + 8 * t69 * t5 + 8 * t72 * t73 + 24 * t80 * t73 - 16 * t76 * t77 - 16 * t83 * t77;
  let t95 : ℝ := (d2chiTrunc (r) l eps);
  let t97 : ℝ := 1 / (H + M);
  let t103 : ℝ := (H * t4 + M * t4 + 2 * a) ^ 2;
  let t104 : ℝ := t103 * t103;
  let t105 : ℝ := 1 / t104;
  let t131 : ℝ := 12 * t1 * t5 * t48 - 4 * t13 * t39 * z + 4 * t2 * t39 * z - 2 * t10 * t6 - t14 * t6 - 4 * t16 * t39 + 4 * t22 * t43 - 4 * t22 * t55 - 4 * t29 * t43 - t3 * t6 - 12 * t42 * t73;
  let t135 : ℝ := a * t5;
  let t148 : ℝ := t4 * z;
  let t151 : ℝ := t4 * t48;
  let t160 : ℝ := -24 * t51 * t135 * z + 12 * t51 * t37 * t5 + 12 * t9 * t5 * t48 - 32 * t72 * t148 + 16 * t76 * t151 + 16 * t83 * t151 - 16 * t37 * t48 + 16 * t69 * t4 + 24 * t51 * t77 - 12 * t62 * t73 + 16 * t68 * z;
  let t163 : ℝ := (dchiTrunc (r) l eps);
  let t209 : ℝ := 32 * t51 * a * t4 * z - 16 * t1 * t4 * t48 + 4 * t13 * t5 * z - 4 * t2 * t5 * z - 16 * t9 * t4 * t48 - 4 * t22 * t135 - 8 * t29 * t135 + 32 * t42 * t148 - 32 * t51 * t151 + 4 * t16 * t5 - 4 * t22 * t73 + 4 * t29 * t73 - 16 * t38 * t4 + 16 * t76 * t48 + 16 * t83 * t48 - 16 * t51 * t89 - 16 * t72 * z - 16 * t80 * z;
  let t212 : ℝ := (chiTrunc (r) l eps);
  -6 * U * (t92 + t46) * t95 * t97 * t105 - 6 * U * (t160 + t131) * t163 * t97 * t105 - 6 * U * t209 * t97 * t105 * t212

/-- particle/singularity/UandPNormal.hpp:884-892 -/
noncomputable def DIVCYLIND_normalMvt3D (X : Fin 3 → ℝ) (H M d U l eps : ℝ) : ℝ :=
  let r2 : ℝ := X 0 * X 0+X 1 * X 1;
  let r : ℝ := Real.sqrt (r2);
  (drur_sing_normalMvt3D X H M d U l eps) + (ur_sing_normalMvt3D X H M d U l eps)/r + (dzuz_sing_normalMvt3D X H M d U l eps)

/-- particle/singularity/UandPNormal.hpp:894-899 -/
noncomputable def DIVCART_normalMvt3D (X : Fin 3 → ℝ) (H M d U l eps : ℝ) : ℝ :=
  (dxux_sing_normalMvt3D X H M d U l eps) + (dyuy_sing_normalMvt3D X H M d U l eps) + (dzuz_sing_normalMvt3D X H M d U l eps)

end Cafes.Sing
