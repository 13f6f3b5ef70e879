import Verif.Model.Trunc

/-!
Generated by tools/gen_sing.py from particle/singularity/UandPTang.hpp: every `double t = e;` is a `let`,
every `return` the result; `double` is `ℝ`, `pow(x, 2)` is `x ^ 2`. The unused argument `param` is dropped.
-/

set_option linter.unusedVariables false
set_option maxRecDepth 4000
namespace Cafes.Sing

/-- particle/singularity/UandPTang.hpp:53-61 -/
noncomputable def p_sing_withT_tangMvt2D (X : Fin 2 → ℝ) (H M d U l eps : ℝ) : ℝ :=
  let mu : ℝ := 1;
  let t4 : ℝ := X 1 * X 1;
  let r : ℝ := X 1;
  let t9 : ℝ := (H * t4 + M * t4 + 2 * d) ^ 2;
  -8 * mu * U * (H - M) * r / t9 / (H + M) * (chiTrunc (r) l eps)

/-- particle/singularity/UandPTang.hpp:63-139 -/
noncomputable def ux_sing_tangMvt2D (X : Fin 2 → ℝ) (H M d U l eps : ℝ) : ℝ :=
  let mu : ℝ := 1;
  let t1 : ℝ := X 1 * X 1;
  let r : ℝ := X 1;
  let z : ℝ := X 0;
  let t2 : ℝ := t1 * H;
  let t6 : ℝ := (t2 + 2 * z) * U * r;
  let t7 : ℝ := H * H;
  let t8 : ℝ := t7 * H;
  let t9 : ℝ := M * M;
  let t10 : ℝ := t8 * t9;
  let t11 : ℝ := t1 * t1;
  let t12 : ℝ := t11 * t1;
  let t15 : ℝ := t9 * M;
  let t16 : ℝ := t7 * t15;
  let t19 : ℝ := t9 * t9;
  let t20 : ℝ := H * t19;
  let t23 : ℝ := t7 * t9;
  let t24 : ℝ := d * t11;
  let t27 : ℝ := t11 * z;
  let t30 : ℝ := H * t15;
  let t38 : ℝ := d * d;
  let t39 : ℝ := t8 * t38;
  let t42 : ℝ := t8 * d;
  let t43 : ℝ := t1 * z;
  let t47 : ℝ := z * z;
  let t50 : ℝ := -48 * t8 * t1 * t47 - 24 * t19 * t11 * z - 48 * t39 * t1 + 12 * t10 * t12 + 24 * t16 * t12 + 12 * t20 * t12 + 96 * t23 * t24 - 24 * t23 * t27 + 96 * t30 * t24 - 48 * t30 * t27 + 96 * t42 * t43;
  let t51 : ℝ := t7 * M;
  let t52 : ℝ := t38 * t1;
  let t56 : ℝ := d * t1 * z;
  let t59 : ℝ := t1 * t47;
  let t62 : ℝ := H * t9;
  let t72 : ℝ := t38 * d;
  let t73 : ℝ := t72 * t7;
  let t75 : ℝ := t7 * t38;
  let t78 : ℝ := t7 * d;
  let t81 : ℝ := t9 * t38;
  let t84 : ℝ := t9 * d;
  let t87 : ℝ := 48 * t15 * t1 * t47 + 96 * t78 * t47 - 96 * t84 * t47 + 144 * t51 * t52 - 96 * t51 * t56 - 48 * t51 * t59 + 144 * t62 * t52 - 192 * t62 * t56 + 48 * t62 * t59 - 192 * t75 * z + 96 * t81 * z + 96 * t73;
  let t89 : ℝ := (chiTrunc (r) l eps);
  let t94 : ℝ := (M * t1 + 2 * d + t2) ^ 2;
  let t95 : ℝ := t94 * t94;
  let t99 : ℝ := 1 / t95 / (H + M);
  let t102 : ℝ := t7 * t7;
  let t103 : ℝ := t102 * H;
  let t104 : ℝ := t11 * t11;
  let t106 : ℝ := t102 * M;
  let t117 : ℝ := t102 * d;
  let t123 : ℝ := t8 * M;
  let t124 : ℝ := d * t12;
  let t127 : ℝ := t12 * z;
  let t151 : ℝ := t38 * t11;
  let t154 : ℝ := -3 * t19 * M * t104 - 24 * t19 * d * t12 + 4 * t102 * t12 * z + 40 * t8 * t11 * t47 + 24 * t19 * t12 * z - 10 * t10 * t104 + t103 * t104 + t106 * t104 - 22 * t16 * t104 - 15 * t20 * t104 + 72 * t39 * t11 + 8 * t117 * t12 + 12 * t123 * t124 + 4 * t123 * t127 - 104 * t23 * t124 - 132 * t30 * t124 + 20 * t23 * t127 + 44 * t30 * t127 - 72 * t51 * t151 - 64 * t42 * t27;
  let t155 : ℝ := t24 * z;
  let t158 : ℝ := t11 * t47;
  let t170 : ℝ := t15 * d;
  let t183 : ℝ := H * M;
  let t195 : ℝ := t38 * t38;
  let t198 : ℝ := H * t72;
  let t201 : ℝ := H * t38;
  let t206 : ℝ := M * t72;
  let t209 : ℝ := M * t38;
  let t212 : ℝ := -336 * t183 * t72 * t1 - 96 * t9 * t72 * t1 + 336 * t183 * t52 * z - 48 * H * t195 - 48 * M * t195 + 192 * t198 * z - 96 * t201 * t47 - 96 * t206 * z + 96 * t209 * t47 + 32 * t78 * t59 - 32 * t84 * t59;
  let t215 : ℝ := (dchiTrunc (r) l eps);
  let t219 : ℝ := t104 * t1;
  let t235 : ℝ := d * t104;
  let t238 : ℝ := t104 * z;
  let t259 : ℝ := t38 * t12;
  let t262 : ℝ := -4 * t102 * t104 * z - 12 * t19 * t104 * z - 16 * t8 * t12 * t47 + 4 * t10 * t219 + 2 * t103 * t219 + 20 * t117 * t104 + 8 * t106 * t219 + 56 * t39 * t12 + 36 * t123 * t235 + 8 * t123 * t238 + 8 * t42 * t127 - 8 * t16 * t219 - 6 * t20 * t219 - 20 * t23 * t235 + 16 * t23 * t238 - 36 * t30 * t235 - 8 * t30 * t238 + 16 * t51 * t259;
  let t263 : ℝ := t124 * z;
  let t266 : ℝ := t12 * t47;
  let t304 : ℝ := -48 * t183 * t72 * t11 + 16 * t15 * t12 * t47 + 64 * t183 * t151 * z + 48 * t73 * t11 - 72 * t170 * t127 - 64 * t78 * t158 + 64 * t84 * t158 + 96 * t198 * t43 - 64 * t201 * t59 - 96 * t206 * t43 + 64 * t209 * t59 - 72 * t62 * t259 + 72 * t51 * t263 - 8 * t62 * t263 - 16 * t51 * t266 + 16 * t62 * t266 + 80 * t75 * t27 - 144 * t81 * t27;
  let t306 : ℝ := (d2chiTrunc (r) l eps);
  -t6 * (t87 + t50) * t89 * t99 / 6 - t6 * (-72 * t15 * t38 * t11 - 40 * t15 * t11 * t47 + 96 * t73 * t1 - 360 * t62 * t151 + 72 * t51 * t155 + 208 * t62 * t155 + 40 * t51 * t158 - 40 * t62 * t158 + 72 * t170 * t27 - 48 * t75 * t43 + t154 + t212) * t215 * t99 / 6 - t6 * (t304 + t262) * t306 * t99 / 6

/-- particle/singularity/UandPTang.hpp:141-187 -/
noncomputable def uz_sing_tangMvt2D (X : Fin 2 → ℝ) (H M d U l eps : ℝ) : ℝ :=
  let mu : ℝ := 1;
  let t3 : ℝ := X 1 * X 1;
  let r : ℝ := X 1;
  let z : ℝ := X 0;
  let t1 : ℝ := H * H;
  let t2 : ℝ := t1 * t1;
  let t4 : ℝ := t3 * t3;
  let t5 : ℝ := t4 * t3;
  let t7 : ℝ := t1 * H;
  let t8 : ℝ := t7 * M;
  let t11 : ℝ := M * M;
  let t12 : ℝ := t11 * M;
  let t13 : ℝ := H * t12;
  let t16 : ℝ := t11 * t11;
  let t18 : ℝ := t7 * d;
  let t24 : ℝ := t1 * M;
  let t25 : ℝ := d * t4;
  let t28 : ℝ := H * t11;
  let t37 : ℝ := d * d;
  let t38 : ℝ := t1 * t37;
  let t41 : ℝ := -6 * d * t12 * t4 + 16 * t12 * t4 * z + 16 * t4 * t7 * z + 4 * t13 * t5 - t16 * t5 - 10 * t18 * t4 + t2 * t5 + 2 * t24 * t25 - 2 * t25 * t28 + 4 * t3 * t38 - 4 * t5 * t8;
  let t43 : ℝ := t3 * z;
  let t47 : ℝ := z * z;
  let t50 : ℝ := H * M;
  let t61 : ℝ := t11 * d;
  let t67 : ℝ := t37 * d;
  let t70 : ℝ := H * t37;
  let t73 : ℝ := d * H;
  let t78 : ℝ := d * M;
  let t81 : ℝ := 48 * d * t3 * t50 * z - 16 * d * t1 * t43 + 24 * t1 * t3 * t47 - 12 * t11 * t3 * t37 - 24 * t11 * t3 * t47 - 24 * t3 * t37 * t50 - 8 * H * t67 - 8 * M * t67 + 32 * t43 * t61 - 16 * t47 * t73 + 16 * t47 * t78 + 32 * t70 * z;
  let t87 : ℝ := H * t3 + M * t3 + 2 * d;
  let t88 : ℝ := t87 * t87;
  let t90 : ℝ := 1 / t88 / t87;
  let t92 : ℝ := 1 / (H + M);
  let t94 : ℝ := (chiTrunc (r) l eps);
  let t97 : ℝ := t4 * t4;
  let t107 : ℝ := d * t5;
  let t110 : ℝ := t5 * z;
  let t139 : ℝ := t3 * t47;
  let t147 : ℝ := -32 * M * t37 * t43 - 16 * t1 * t4 * t47 + 16 * t11 * t4 * t47 - 8 * t12 * t5 * z + 32 * t25 * t50 * z - 16 * t37 * t4 * t50 - 32 * t4 * t61 * z - 8 * t5 * t7 * z + 8 * t107 * t24 - 16 * t107 * t28 + 8 * t110 * t24 + 8 * t110 * t28 - 4 * t13 * t97 - 32 * t139 * t73 + 32 * t139 * t78 + 8 * t18 * t5 + 16 * t38 * t4 + 32 * t43 * t70 + 4 * t8 * t97;
  let t149 : ℝ := (dchiTrunc (r) l eps);
  U * (t81 + t41) * t90 * t92 * t94 / 2 + U * t147 * t149 * t90 * t92 / 2

/-- particle/singularity/UandPTang.hpp:189-263 -/
noncomputable def dxux_sing_tangMvt2D (X : Fin 2 → ℝ) (H M d U l eps : ℝ) : ℝ :=
  let mu : ℝ := 1;
  let t5 : ℝ := X 1 * X 1;
  let r : ℝ := X 1;
  let z : ℝ := X 0;
  let t1 : ℝ := U * r;
  let t2 : ℝ := H * H;
  let t3 : ℝ := t2 * t2;
  let t4 : ℝ := t3 * d;
  let t6 : ℝ := t5 * t5;
  let t12 : ℝ := t2 * H;
  let t13 : ℝ := t12 * M;
  let t14 : ℝ := d * t6;
  let t17 : ℝ := t6 * z;
  let t20 : ℝ := M * M;
  let t21 : ℝ := t20 * M;
  let t22 : ℝ := H * t21;
  let t27 : ℝ := t20 * t20;
  let t31 : ℝ := d * d;
  let t32 : ℝ := t12 * t31;
  let t35 : ℝ := t12 * d;
  let t36 : ℝ := t5 * z;
  let t40 : ℝ := z * z;
  let t43 : ℝ := t2 * M;
  let t44 : ℝ := t31 * t5;
  let t47 : ℝ := -48 * t12 * t5 * t40 - 16 * t27 * t6 * z - 16 * t3 * t6 * z - 16 * t13 * t14 - 16 * t13 * t17 + 32 * t22 * t14 - 16 * t22 * t17 - 48 * t32 * t5 + 96 * t35 * t36 + 16 * t4 * t6 + 48 * t43 * t44;
  let t49 : ℝ := d * t5 * z;
  let t52 : ℝ := t5 * t40;
  let t55 : ℝ := H * t20;
  let t65 : ℝ := t31 * d;
  let t66 : ℝ := t65 * t2;
  let t68 : ℝ := t2 * t31;
  let t71 : ℝ := t2 * d;
  let t74 : ℝ := t20 * t31;
  let t77 : ℝ := t20 * d;
  let t80 : ℝ := 48 * t21 * t5 * t40 + 96 * t71 * t40 - 96 * t77 * t40 - 64 * t43 * t49 - 48 * t43 * t52 + 64 * t55 * t44 - 160 * t55 * t49 + 48 * t55 * t52 - 128 * t68 * z + 64 * t74 * z + 32 * t66;
  let t83 : ℝ := (chiTrunc (r) l eps);
  let t88 : ℝ := (H * t5 + M * t5 + 2 * d) ^ 2;
  let t89 : ℝ := t88 * t88;
  let t90 : ℝ := 1 / t89;
  let t93 : ℝ := 1 / (H + M);
  let t97 : ℝ := t6 * t6;
  let t99 : ℝ := t3 * M;
  let t101 : ℝ := H * t27;
  let t105 : ℝ := t6 * t5;
  let t111 : ℝ := d * t105;
  let t114 : ℝ := t105 * z;
  let t134 : ℝ := t31 * t6;
  let t137 : ℝ := t14 * z;
  let t140 : ℝ := t6 * t40;
  let t143 : ℝ := t3 * H * t97 - t27 * M * t97 - 8 * t27 * d * t105 + 16 * t27 * t105 * z + 16 * t3 * t105 * z + 40 * t12 * t6 * t40 - t101 * t97 - 8 * t4 * t105 + 16 * t13 * t111 - 32 * t22 * t111 + 16 * t13 * t114 + 16 * t22 * t114 + 32 * t43 * t134 + 48 * t43 * t137 + 40 * t43 * t140 - 32 * t35 * t17 + 16 * t32 * t6 + t99 * t97;
  let t153 : ℝ := t21 * d;
  let t165 : ℝ := H * M;
  let t177 : ℝ := t31 * t31;
  let t180 : ℝ := H * t65;
  let t183 : ℝ := H * t31;
  let t188 : ℝ := M * t65;
  let t191 : ℝ := M * t31;
  let t194 : ℝ := 256 * t165 * t44 * z - 128 * t165 * t65 * t5 - 32 * t20 * t65 * t5 - 24 * t21 * t31 * t6 - 40 * t21 * t6 * t40 - 16 * H * t177 - 16 * M * t177 - 120 * t55 * t134 + 128 * t55 * t137 - 40 * t55 * t140 + 48 * t153 * t17 + 128 * t180 * z - 96 * t183 * t40 - 64 * t188 * z + 96 * t191 * t40 - 64 * t68 * t36 + 64 * t66 * t5 + 32 * t71 * t52 - 32 * t77 * t52;
  let t197 : ℝ := (dchiTrunc (r) l eps);
  let t201 : ℝ := t97 * t5;
  let t217 : ℝ := d * t97;
  let t220 : ℝ := t2 * t20;
  let t238 : ℝ := t31 * t105;
  let t241 : ℝ := t111 * z;
  let t244 : ℝ := -16 * t12 * t105 * t40 + 4 * t12 * t20 * t201 - 4 * t2 * t21 * t201 + 16 * t220 * t97 * z - 8 * t27 * t97 * z - 8 * t3 * t97 * z - 4 * t101 * t201 + 32 * t32 * t105 - 16 * t35 * t114 + 24 * t13 * t217 + 4 * t99 * t201 - 24 * t22 * t217 - 8 * t220 * t217 + 16 * t43 * t238 + 48 * t43 * t241 + 8 * t4 * t97;
  let t245 : ℝ := t105 * t40;
  let t283 : ℝ := 16 * t21 * t105 * t40 + 64 * t165 * t134 * z - 32 * t165 * t65 * t6 - 48 * t153 * t114 - 64 * t71 * t140 + 64 * t77 * t140 + 32 * t68 * t17 - 96 * t74 * t17 + 64 * t180 * t36 - 64 * t183 * t52 - 64 * t188 * t36 + 64 * t191 * t52 - 48 * t55 * t238 + 16 * t55 * t241 - 16 * t43 * t245 + 16 * t55 * t245 + 32 * t66 * t6;
  let t286 : ℝ := (d2chiTrunc (r) l eps);
  -t1 * (t80 + t47) * t83 * t90 * t93 - t1 * (t194 + t143) * t197 * t90 * t93 - t1 * (t283 + t244) * t286 * t90 * t93

/-- particle/singularity/UandPTang.hpp:265-433 -/
noncomputable def dzux_sing_tangMvt2D (X : Fin 2 → ℝ) (H M d U l eps : ℝ) : ℝ :=
  let mu : ℝ := 1;
  let t6 : ℝ := X 1 * X 1;
  let r : ℝ := X 1;
  let z : ℝ := X 0;
  let t1 : ℝ := H * H;
  let t2 : ℝ := t1 * t1;
  let t3 : ℝ := t2 * H;
  let t4 : ℝ := M * M;
  let t5 : ℝ := t3 * t4;
  let t7 : ℝ := t6 * t6;
  let t8 : ℝ := t7 * t7;
  let t9 : ℝ := t8 * t6;
  let t12 : ℝ := t4 * M;
  let t13 : ℝ := t2 * t12;
  let t16 : ℝ := t1 * H;
  let t17 : ℝ := t4 * t4;
  let t18 : ℝ := t16 * t17;
  let t21 : ℝ := t17 * M;
  let t22 : ℝ := t1 * t21;
  let t25 : ℝ := t2 * t4;
  let t26 : ℝ := d * t8;
  let t29 : ℝ := t16 * t12;
  let t32 : ℝ := t1 * t17;
  let t35 : ℝ := d * d;
  let t36 : ℝ := t3 * t35;
  let t37 : ℝ := t7 * t6;
  let t40 : ℝ := t3 * d;
  let t41 : ℝ := t37 * z;
  let t45 : ℝ := z * z;
  let t48 : ℝ := t2 * M;
  let t49 : ℝ := t35 * t37;
  let t52 : ℝ := t37 * t45;
  let t55 : ℝ := t16 * t4;
  let t58 : ℝ := 144 * t3 * t37 * t45 + 36 * t13 * t9 + 36 * t18 * t9 + 12 * t22 * t9 + 120 * t25 * t26 + 240 * t29 * t26 + 120 * t32 * t26 + 144 * t36 * t37 - 288 * t40 * t41 - 288 * t48 * t49 + 288 * t48 * t52 + 480 * t55 * t49 + 12 * t5 * t9;
  let t59 : ℝ := d * t37;
  let t60 : ℝ := t59 * z;
  let t65 : ℝ := t1 * t12;
  let t72 : ℝ := H * t17;
  let t80 : ℝ := t35 * d;
  let t81 : ℝ := t2 * t80;
  let t84 : ℝ := t2 * t35;
  let t85 : ℝ := t7 * z;
  let t88 : ℝ := t2 * d;
  let t89 : ℝ := t7 * t45;
  let t93 : ℝ := t45 * z;
  let t96 : ℝ := t16 * M;
  let t97 : ℝ := t80 * t7;
  let t100 : ℝ := 480 * t2 * t7 * t93 + 144 * t21 * t37 * t45 + 912 * t65 * t49 + 144 * t55 * t52 + 144 * t65 * t52 + 288 * t72 * t52 + 288 * t55 * t60 - 576 * t65 * t60 - 576 * t72 * t60 - 960 * t81 * t7 + 2400 * t84 * t85 - 1920 * t88 * t89 + 960 * t96 * t97;
  let t102 : ℝ := t35 * t7;
  let t103 : ℝ := t102 * z;
  let t106 : ℝ := d * t7;
  let t107 : ℝ := t106 * t45;
  let t110 : ℝ := t7 * t93;
  let t113 : ℝ := t1 * t4;
  let t120 : ℝ := H * t12;
  let t125 : ℝ := t17 * d;
  let t131 : ℝ := t35 * t35;
  let t132 : ℝ := t16 * t131;
  let t135 : ℝ := t16 * t80;
  let t136 : ℝ := t6 * z;
  let t139 : ℝ := t16 * t35;
  let t140 : ℝ := t6 * t45;
  let t143 : ℝ := -480 * t17 * t7 * t93 - 3360 * t113 * t103 - 960 * t96 * t103 + 3360 * t113 * t107 + 1920 * t120 * t107 - 960 * t96 * t107 - 960 * t120 * t110 + 960 * t96 * t110 + 1440 * t113 * t97 - 480 * t125 * t89 + 576 * t132 * t6 - 3072 * t135 * t136 + 4416 * t139 * t140;
  let t144 : ℝ := t16 * d;
  let t145 : ℝ := t6 * t93;
  let t148 : ℝ := t1 * M;
  let t149 : ℝ := t80 * t6;
  let t150 : ℝ := t149 * z;
  let t154 : ℝ := t35 * t6 * t45;
  let t158 : ℝ := d * t6 * t93;
  let t161 : ℝ := H * t4;
  let t168 : ℝ := t12 * t35;
  let t171 : ℝ := t12 * d;
  let t174 : ℝ := t1 * t131;
  let t177 : ℝ := t1 * t80;
  let t180 : ℝ := t1 * t35;
  let t183 : ℝ := t4 * t80;
  let t186 : ℝ := t4 * t35;
  let t189 : ℝ := -1344 * t168 * t140 - 1920 * t144 * t145 + 1920 * t171 * t145 + 384 * t148 * t150 + 1536 * t148 * t154 - 1920 * t148 * t158 + 2304 * t161 * t150 - 4224 * t161 * t154 + 1920 * t161 * t158 + 384 * t174 * z - 768 * t177 * t45 + 384 * t180 * t93 + 384 * t183 * t45 - 384 * t186 * t93;
  let t196 : ℝ := H * t6 + M * t6 + 2 * d;
  let t197 : ℝ := t196 * t196;
  let t198 : ℝ := t197 * t197;
  let t200 : ℝ := 1 / t198 / t196;
  let t202 : ℝ := 1 / (H + M);
  let t204 : ℝ := (chiTrunc (r) l eps);
  let t207 : ℝ := t2 * t16;
  let t208 : ℝ := t8 * t7;
  let t211 : ℝ := t2 * t1;
  let t212 : ℝ := t211 * M;
  let t223 : ℝ := t17 * t4;
  let t224 : ℝ := H * t223;
  let t227 : ℝ := t211 * d;
  let t233 : ℝ := t3 * M;
  let t234 : ℝ := d * t9;
  let t238 : ℝ := t9 * z;
  let t251 : ℝ := H * t21;
  let t261 : ℝ := t8 * z;
  let t264 : ℝ := -6 * t223 * t9 * z + 12 * t233 * t238 - 72 * t25 * t234 - 90 * t251 * t234 - 240 * t29 * t234 - 246 * t32 * t234 + 6 * t25 * t238 - 12 * t251 * t238 - 6 * t32 * t238 + 348 * t40 * t261 - 24 * t36 * t8;
  let t269 : ℝ := t35 * t8;
  let t272 : ℝ := t26 * z;
  let t275 : ℝ := t8 * t45;
  let t297 : ℝ := t21 * d;
  let t312 : ℝ := t80 * t37;
  let t315 : ℝ := t49 * z;
  let t318 : ℝ := -432 * t2 * t37 * t93 - 144 * t21 * t8 * t45 - 60 * t297 * t261 - 360 * t72 * t269 + 516 * t72 * t272 - 288 * t72 * t275 + 480 * t96 * t312 + 96 * t96 * t315 + 720 * t81 * t37 - 1152 * t84 * t41 + 1344 * t88 * t52;
  let t321 : ℝ := t59 * t45;
  let t324 : ℝ := t37 * t93;
  let t341 : ℝ := t17 * t35;
  let t358 : ℝ := t131 * t7;
  let t361 : ℝ := t97 * z;
  let t364 : ℝ := t102 * t45;
  let t367 : ℝ := t106 * t93;
  let t372 : ℝ := 432 * t17 * t37 * t93 + 480 * t144 * t110 + 48 * t125 * t52 + 1584 * t132 * t7 - 1728 * t135 * t85 + 384 * t139 * t89 - 2880 * t148 * t358 + 5376 * t148 * t361 - 2976 * t148 * t364 + 480 * t148 * t367 - 720 * t161 * t358;
  let t380 : ℝ := t12 * t80;
  let t387 : ℝ := t131 * d;
  let t388 : ℝ := t1 * t387;
  let t397 : ℝ := H * M;
  let t401 : ℝ := -288 * t397 * t387 * t6 - 480 * t171 * t110 + 3744 * t174 * t136 - 5376 * t177 * t140 + 2496 * t180 * t145 - 864 * t161 * t361 - 1536 * t161 * t364 - 480 * t161 * t367 + 1824 * t168 * t89 - 480 * t380 * t85 - 288 * t388 * t6;
  let t409 : ℝ := t4 * t131;
  let t416 : ℝ := H * t387;
  let t419 : ℝ := H * t131;
  let t422 : ℝ := H * t80;
  let t425 : ℝ := M * t387;
  let t428 : ℝ := M * t131;
  let t431 : ℝ := M * t80;
  let t434 : ℝ := -3264 * t397 * t131 * t6 * z + 3264 * t397 * t149 * t45 - 480 * t409 * t136 + 2112 * t183 * t140 - 2496 * t186 * t145 - 192 * t416 * z + 768 * t419 * t45 - 384 * t422 * t93 - 192 * t425 * z - 384 * t428 * t45 + 384 * t431 * t93;
  let t439 : ℝ := (dchiTrunc (r) l eps);
  let t443 : ℝ := t8 * t37;
  let t463 : ℝ := d * t208;
  let t467 : ℝ := t208 * z;
  let t491 : ℝ := -12 * t223 * t208 * z + 96 * t233 * t467 - 24 * t40 * t238 - 72 * t25 * t463 + 156 * t25 * t467 - 60 * t251 * t463 - 96 * t251 * t467 - 936 * t29 * t463 - 636 * t32 * t463 - 156 * t32 * t467 + 672 * t36 * t9;
  let t496 : ℝ := t35 * t9;
  let t499 : ℝ := t234 * z;
  let t502 : ℝ := t9 * t45;
  let t538 : ℝ := t80 * t8;
  let t541 : ℝ := t269 * z;
  let t544 : ℝ := 192 * t2 * t8 * t93 + 72 * t21 * t9 * t45 - 120 * t297 * t238 + 672 * t84 * t261 - 384 * t88 * t275 - 240 * t72 * t496 - 1176 * t72 * t499 + 168 * t72 * t502 - 480 * t96 * t538 + 3264 * t96 * t541 + 1440 * t81 * t8;
  let t547 : ℝ := t26 * t45;
  let t550 : ℝ := t8 * t93;
  let t583 : ℝ := t131 * t37;
  let t586 : ℝ := t312 * z;
  let t589 : ℝ := t49 * t45;
  let t592 : ℝ := t59 * t93;
  let t597 : ℝ := -192 * t17 * t8 * t93 + 192 * t125 * t275 + 960 * t132 * t37 + 3264 * t135 * t41 - 1728 * t139 * t52 + 384 * t144 * t324 - 2208 * t148 * t583 + 1344 * t148 * t586 + 2880 * t148 * t589 + 384 * t148 * t592 - 480 * t161 * t583;
  let t645 : ℝ := -5376 * t397 * t358 * z + 5376 * t397 * t97 * t45 + 768 * t186 * t110 - 384 * t416 * t136 - 384 * t425 * t136 + 2688 * t419 * t140 - 1920 * t428 * t140 - 1536 * t422 * t145 + 1536 * t431 * t145 - 2304 * t183 * t89 - 960 * t409 * t85;
  let t650 : ℝ := (d2chiTrunc (r) l eps);
  let t654 : ℝ := t8 * t8;
  let t669 : ℝ := d * t443;
  let t672 : ℝ := t443 * z;
  let t691 : ℝ := -8 * t13 * t654 - 28 * t18 * t654 + 4 * t207 * t654 + 192 * t36 * t208 + 20 * t212 * t654 - 12 * t22 * t654 + 48 * t227 * t443 + 144 * t233 * t669 + 48 * t233 * t672 + 48 * t25 * t669 + 96 * t25 * t672 - 48 * t251 * t672 - 144 * t29 * t669 - 96 * t32 * t669 - 96 * t32 * t672 + 96 * t40 * t467 + 24 * t5 * t654;
  let t695 : ℝ := t35 * t208;
  let t698 : ℝ := t463 * z;
  let t701 : ℝ := t208 * t45;
  let t732 : ℝ := -64 * t2 * t9 * t93 - 48 * t21 * t208 * t45 - 48 * t3 * t208 * t45 + 576 * t84 * t238 + 288 * t48 * t695 + 480 * t48 * t698 - 48 * t48 * t701 - 192 * t88 * t502 - 192 * t55 * t695 + 288 * t55 * t698 + 96 * t55 * t701 - 288 * t65 * t695 - 480 * t65 * t698 + 96 * t65 * t701 - 384 * t72 * t698 - 48 * t72 * t701 + 320 * t81 * t9;
  let t734 : ℝ := t80 * t9;
  let t737 : ℝ := t496 * z;
  let t740 : ℝ := t234 * t45;
  let t743 : ℝ := t9 * t93;
  let t772 : ℝ := t538 * z;
  let t775 : ℝ := -192 * t148 * t131 * t8 + 64 * t17 * t9 * t93 - 384 * t113 * t734 - 576 * t113 * t737 + 576 * t113 * t740 - 1152 * t120 * t737 - 192 * t120 * t740 + 128 * t120 * t743 - 384 * t125 * t502 + 192 * t132 * t8 + 1152 * t135 * t261 - 384 * t144 * t550 + 384 * t148 * t772 + 64 * t96 * t734 + 1152 * t96 * t737 + 192 * t96 * t740 - 128 * t96 * t743;
  let t779 : ℝ := t26 * t93;
  let t814 : ℝ := 1152 * t148 * t269 * t45 + 768 * t397 * t312 * t45 - 768 * t397 * t583 * z - 512 * t422 * t110 + 512 * t431 * t110 - 384 * t148 * t779 - 1536 * t161 * t772 + 384 * t161 * t779 - 1152 * t168 * t275 + 384 * t171 * t550 + 768 * t174 * t41 + 768 * t177 * t52 - 768 * t180 * t324 - 1536 * t183 * t52 + 768 * t186 * t324 + 768 * t419 * t89 - 768 * t428 * t89;
  let t818 : ℝ := (d3chiTrunc (r) l eps);
  -U * (t189 + t143 + t100 + t58) * t200 * t202 * t204 / 6 - U * (42 * t233 * t234 + 3 * t207 * t208 + 6 * t212 * t208 - 3 * t5 * t208 - 24 * t13 * t208 - 39 * t18 * t208 - 30 * t22 * t208 - 9 * t224 * t208 + 30 * t227 * t9 + 528 * t96 * t321 - 864 * t96 * t324 - 3168 * t113 * t312 + 2928 * t113 * t315 - 2928 * t113 * t321 - 720 * t120 * t312 + 1440 * t120 * t315 - 2064 * t120 * t321 + 864 * t120 * t324 - 240 * t341 * t41 + 408 * t48 * t269 + 60 * t48 * t272 - 288 * t48 * t275 - 480 * t55 * t269 - 288 * t55 * t272 - 144 * t55 * t275 - 1272 * t65 * t269 + 576 * t65 * t272 - 144 * t65 * t275 + t434 + t372 + t264 + t401 + 6 * t211 * t9 * z - 144 * t3 * t8 * t45 + t318) * t439 * t200 * t202 / 6 - U * (t491 + t645 - 8256 * t161 * t586 + 4032 * t161 * t589 - 384 * t161 * t592 - 960 * t380 * t41 - 576 * t168 * t52 - 384 * t171 * t324 - 192 * t388 * t7 + 3264 * t174 * t85 - 768 * t180 * t110 + t597 + 12 * t211 * t208 * z + 72 * t3 * t9 * t45 + t544 - 480 * t120 * t538 - 4800 * t120 * t541 + 1344 * t120 * t547 - 384 * t120 * t550 - 480 * t341 * t261 + 192 * t96 * t547 + 384 * t96 * t550 - 3552 * t113 * t538 - 1728 * t113 * t541 + 1728 * t113 * t547 + 420 * t233 * t463 + 12 * t207 * t443 + 54 * t212 * t443 + 42 * t5 * t443 - 84 * t13 * t443 - 144 * t18 * t443 - 66 * t22 * t443 - 6 * t224 * t443 + 132 * t227 * t208 + 912 * t48 * t496 + 840 * t48 * t499 + 168 * t48 * t502 - 1776 * t55 * t496 + 816 * t55 * t499 + 144 * t55 * t502 - 2256 * t65 * t496 - 1104 * t65 * t499 + 144 * t65 * t502 - 192 * t397 * t387 * t7) * t650 * t200 * t202 / 6 - U * (t814 + t775 + t732 + t691) * t818 * t200 * t202 / 6

/-- particle/singularity/UandPTang.hpp:435-464 -/
noncomputable def dxuz_sing_tangMvt2D (X : Fin 2 → ℝ) (H M d U l eps : ℝ) : ℝ :=
  let mu : ℝ := 1;
  let t3 : ℝ := X 1 * X 1;
  let r : ℝ := X 1;
  let z : ℝ := X 0;
  let t1 : ℝ := H * H;
  let t2 : ℝ := t1 * H;
  let t4 : ℝ := t3 * t3;
  let t7 : ℝ := M * M;
  let t8 : ℝ := t7 * M;
  let t17 : ℝ := H * M;
  let t21 : ℝ := t7 * d;
  let t27 : ℝ := d * d;
  let t28 : ℝ := H * t27;
  let t30 : ℝ := d * H;
  let t33 : ℝ := d * M;
  let t41 : ℝ := H * t3 + M * t3 + 2 * d;
  let t42 : ℝ := t41 * t41;
  let t44 : ℝ := 1 / t42 / t41;
  let t46 : ℝ := 1 / (H + M);
  let t48 : ℝ := (chiTrunc (r) l eps);
  let t51 : ℝ := t4 * t3;
  let t71 : ℝ := t3 * z;
  let t79 : ℝ := -H * t7 * t51 - t1 * M * t51 + 4 * M * t27 * t3 - 4 * t17 * d * t4 + 4 * t1 * t4 * z - 4 * t7 * t4 * z + t2 * t51 + 4 * t21 * t4 - 4 * t28 * t3 + 8 * t30 * t71 - 8 * t33 * t71 + t8 * t51;
  let t81 : ℝ := (dchiTrunc (r) l eps);
  -4 * U * (2 * t1 * d * t3 - 6 * t17 * d * t3 - 6 * t1 * t3 * z + 6 * t7 * t3 * z - 2 * t2 * t4 - 4 * t21 * t3 + 4 * t30 * z - 4 * t33 * z - 2 * t8 * t4 - 4 * t28) * t44 * t46 * t48 - 4 * U * t79 * t81 * t44 * t46

/-- particle/singularity/UandPTang.hpp:466-539 -/
noncomputable def dzuz_sing_tangMvt2D (X : Fin 2 → ℝ) (H M d U l eps : ℝ) : ℝ :=
  let mu : ℝ := 1;
  let t5 : ℝ := X 1 * X 1;
  let r : ℝ := X 1;
  let z : ℝ := X 0;
  let t1 : ℝ := U * r;
  let t2 : ℝ := H * H;
  let t3 : ℝ := t2 * t2;
  let t4 : ℝ := t3 * d;
  let t6 : ℝ := t5 * t5;
  let t12 : ℝ := t2 * H;
  let t13 : ℝ := t12 * M;
  let t14 : ℝ := d * t6;
  let t17 : ℝ := t6 * z;
  let t20 : ℝ := M * M;
  let t21 : ℝ := t20 * M;
  let t22 : ℝ := H * t21;
  let t27 : ℝ := t20 * t20;
  let t31 : ℝ := d * d;
  let t32 : ℝ := t12 * t31;
  let t35 : ℝ := t12 * d;
  let t36 : ℝ := t5 * z;
  let t40 : ℝ := z * z;
  let t43 : ℝ := t2 * M;
  let t44 : ℝ := t31 * t5;
  let t47 : ℝ := -48 * t12 * t5 * t40 - 16 * t27 * t6 * z - 16 * t3 * t6 * z - 16 * t13 * t14 - 16 * t13 * t17 + 32 * t22 * t14 - 16 * t22 * t17 - 48 * t32 * t5 + 96 * t35 * t36 + 16 * t4 * t6 + 48 * t43 * t44;
  let t49 : ℝ := d * t5 * z;
  let t52 : ℝ := t5 * t40;
  let t55 : ℝ := H * t20;
  let t65 : ℝ := t31 * d;
  let t66 : ℝ := t65 * t2;
  let t68 : ℝ := t2 * t31;
  let t71 : ℝ := t2 * d;
  let t74 : ℝ := t20 * t31;
  let t77 : ℝ := t20 * d;
  let t80 : ℝ := 48 * t21 * t5 * t40 + 96 * t71 * t40 - 96 * t77 * t40 - 64 * t43 * t49 - 48 * t43 * t52 + 64 * t55 * t44 - 160 * t55 * t49 + 48 * t55 * t52 - 128 * t68 * z + 64 * t74 * z + 32 * t66;
  let t87 : ℝ := (H * t5 + M * t5 + 2 * d) ^ 2;
  let t88 : ℝ := t87 * t87;
  let t89 : ℝ := 1 / t88;
  let t91 : ℝ := 1 / (H + M);
  let t93 : ℝ := (chiTrunc (r) l eps);
  let t97 : ℝ := t6 * t6;
  let t99 : ℝ := t3 * M;
  let t101 : ℝ := H * t27;
  let t105 : ℝ := t6 * t5;
  let t111 : ℝ := d * t105;
  let t114 : ℝ := t105 * z;
  let t134 : ℝ := t31 * t6;
  let t137 : ℝ := t14 * z;
  let t140 : ℝ := t6 * t40;
  let t143 : ℝ := t3 * H * t97 - t27 * M * t97 - 8 * t27 * d * t105 + 16 * t27 * t105 * z + 16 * t3 * t105 * z + 40 * t12 * t6 * t40 - t101 * t97 - 8 * t4 * t105 + 16 * t13 * t111 - 32 * t22 * t111 + 16 * t13 * t114 + 16 * t22 * t114 + 32 * t43 * t134 + 48 * t43 * t137 + 40 * t43 * t140 - 32 * t35 * t17 + 16 * t32 * t6 + t99 * t97;
  let t153 : ℝ := t21 * d;
  let t165 : ℝ := H * M;
  let t177 : ℝ := t31 * t31;
  let t180 : ℝ := H * t65;
  let t183 : ℝ := H * t31;
  let t188 : ℝ := M * t65;
  let t191 : ℝ := M * t31;
  let t194 : ℝ := 256 * t165 * t44 * z - 128 * t165 * t65 * t5 - 32 * t20 * t65 * t5 - 24 * t21 * t31 * t6 - 40 * t21 * t6 * t40 - 16 * H * t177 - 16 * M * t177 - 120 * t55 * t134 + 128 * t55 * t137 - 40 * t55 * t140 + 48 * t153 * t17 + 128 * t180 * z - 96 * t183 * t40 - 64 * t188 * z + 96 * t191 * t40 - 64 * t68 * t36 + 64 * t66 * t5 + 32 * t71 * t52 - 32 * t77 * t52;
  let t197 : ℝ := (dchiTrunc (r) l eps);
  let t201 : ℝ := t97 * t5;
  let t217 : ℝ := d * t97;
  let t220 : ℝ := t2 * t20;
  let t238 : ℝ := t31 * t105;
  let t241 : ℝ := t111 * z;
  let t244 : ℝ := -16 * t12 * t105 * t40 + 4 * t12 * t20 * t201 - 4 * t2 * t21 * t201 + 16 * t220 * t97 * z - 8 * t27 * t97 * z - 8 * t3 * t97 * z - 4 * t101 * t201 + 32 * t32 * t105 - 16 * t35 * t114 + 24 * t13 * t217 + 4 * t99 * t201 - 24 * t22 * t217 - 8 * t220 * t217 + 16 * t43 * t238 + 48 * t43 * t241 + 8 * t4 * t97;
  let t245 : ℝ := t105 * t40;
  let t283 : ℝ := 16 * t21 * t105 * t40 + 64 * t165 * t134 * z - 32 * t165 * t65 * t6 - 48 * t153 * t114 - 64 * t71 * t140 + 64 * t77 * t140 + 32 * t68 * t17 - 96 * t74 * t17 + 64 * t180 * t36 - 64 * t183 * t52 - 64 * t188 * t36 + 64 * t191 * t52 - 48 * t55 * t238 + 16 * t55 * t241 - 16 * t43 * t245 + 16 * t55 * t245 + 32 * t66 * t6;
  let t286 : ℝ := (d2chiTrunc (r) l eps);
  t1 * (t80 + t47) * t89 * t91 * t93 + t1 * (t194 + t143) * t197 * t89 * t91 + t1 * (t283 + t244) * t286 * t89 * t91

/-- particle/singularity/UandPTang.hpp:541-545 -/
noncomputable def DIVCART_tangMvt2D (X : Fin 2 → ℝ) (H M d U l eps : ℝ) : ℝ :=
  (dxux_sing_tangMvt2D X H M d U l eps) + (dzuz_sing_tangMvt2D X H M d U l eps)

/-- particle/singularity/UandPTang.hpp:557-576 -/
noncomputable def p_sing_withT_tangMvt3D (X : Fin 3 → ℝ) (H M d U l eps : ℝ) : ℝ :=
  let mu : ℝ := 1;
  let t3 : ℝ := X 0 * X 0+X 1 * X 1;
  let r : ℝ := Real.sqrt (t3);
  let cosTheta : ℝ := if r ≠ 0 then X 0/r else 1;
  let t4 : ℝ := (chiTrunc (r) l eps);
  let t11 : ℝ := (H * t3 + M * t3 + 2 * d) ^ 2;
  let P : ℝ := (48 / 5 * r * (H - M) * t4 / t11 / (H + M));
  mu*U*P*cosTheta/2

/-- particle/singularity/UandPTang.hpp:581-628 -/
noncomputable def U0_tang3D (X : Fin 3 → ℝ) (H M d U l eps : ℝ) : ℝ :=
  let t3 : ℝ := X 0 * X 0+X 1 * X 1;
  let r : ℝ := Real.sqrt (t3);
  let z : ℝ := X 2;
  let t1 : ℝ := H * H;
  let t2 : ℝ := t1 * t1;
  let t4 : ℝ := t3 * t3;
  let t5 : ℝ := t4 * t3;
  let t8 : ℝ := t1 * H;
  let t9 : ℝ := t8 * M;
  let t12 : ℝ := M * M;
  let t13 : ℝ := t12 * M;
  let t14 : ℝ := H * t13;
  let t17 : ℝ := t12 * t12;
  let t26 : ℝ := t1 * M;
  let t27 : ℝ := d * t4;
  let t30 : ℝ := t4 * z;
  let t33 : ℝ := H * t12;
  let t38 : ℝ := t13 * d;
  let t44 : ℝ := d * d;
  let t48 : ℝ := 30 * t8 * d * t4 + 60 * t1 * t44 * t3 - 56 * t13 * t4 * z - 56 * t8 * t4 * z + 8 * t14 * t5 - 5 * t17 * t5 + 5 * t2 * t5 + 26 * t26 * t27 - 24 * t26 * t30 - 2 * t33 * t27 - 24 * t33 * t30 + 26 * t38 * t4 - 8 * t9 * t5;
  let t49 : ℝ := t1 * d;
  let t50 : ℝ := t3 * z;
  let t54 : ℝ := z * z;
  let t57 : ℝ := H * M;
  let t65 : ℝ := t12 * t44;
  let t74 : ℝ := t44 * d;
  let t77 : ℝ := H * t44;
  let t80 : ℝ := H * d;
  let t85 : ℝ := M * t44;
  let t88 : ℝ := M * d;
  let t91 : ℝ := -208 * d * t3 * t57 * z + 16 * d * t12 * t50 + 72 * t1 * t3 * t54 - 72 * t12 * t3 * t54 + 104 * t3 * t44 * t57 + 40 * H * t74 + 40 * M * t74 - 4 * t3 * t65 - 128 * t49 * t50 - 48 * t54 * t80 + 48 * t54 * t88 - 32 * t77 * z - 128 * t85 * z;
  let t94 : ℝ := 1 / (H + M);
  let t99 : ℝ := H * t3 + M * t3 + 2 * d;
  let t100 : ℝ := t99 * t99;
  let t102 : ℝ := 1 / t100 / t99;
  let t103 : ℝ := (chiTrunc (r) l eps);
  let t106 : ℝ := t4 * t4;
  let t114 : ℝ := d * t5;
  let t117 : ℝ := t5 * z;
  let t147 : ℝ := t3 * t54;
  let t154 : ℝ := -48 * t1 * t4 * t54 + 48 * t12 * t4 * t54 + 24 * t13 * t5 * z - 96 * t27 * t57 * z + 48 * t4 * t44 * t57 + 24 * t5 * t8 * z - 12 * t106 * t14 + 12 * t106 * t9 + 48 * t114 * t26 - 24 * t114 * t33 - 24 * t117 * t26 - 24 * t117 * t33 - 96 * t147 * t80 + 96 * t147 * t88 + 96 * t30 * t49 - 24 * t38 * t5 - 48 * t4 * t65 + 96 * t50 * t77 - 96 * t50 * t85;
  let t155 : ℝ := (dchiTrunc (r) l eps);
  -(t91 + t48) * t94 * t102 * t103 / 5 - t154 * t155 * t102 * t94 / 5

/-- particle/singularity/UandPTang.hpp:630-648 -/
noncomputable def V0_tang3D (X : Fin 3 → ℝ) (H M d U l eps : ℝ) : ℝ :=
  let t3 : ℝ := X 0 * X 0+X 1 * X 1;
  let r : ℝ := Real.sqrt (t3);
  let z : ℝ := X 2;
  let t1 : ℝ := H * H;
  let t4 : ℝ := t3 * t3;
  let t10 : ℝ := M * M;
  let t23 : ℝ := H * M;
  let t36 : ℝ := d * d;
  let t42 : ℝ := z * z;
  let t52 : ℝ := -16 * H * d * z + 5 * H * t1 * t4 - 11 * H * t10 * t4 - 64 * M * d * z + 11 * M * t1 * t4 - 5 * M * t10 * t4 + 20 * d * t1 * t3 - 12 * d * t10 * t3 + 32 * d * t23 * t3 - 8 * t1 * t3 * z - 8 * t10 * t3 * z - 64 * t23 * t3 * z + 20 * H * t36 - 24 * H * t42 + 20 * M * t36 + 24 * M * t42;
  let t53 : ℝ := (chiTrunc (r) l eps);
  let t61 : ℝ := (H * t3 + M * t3 + 2 * d) ^ 2;
  t52 * t53 / (H + M) / t61 / 5

/-- particle/singularity/UandPTang.hpp:650-729 -/
noncomputable def W0_tang3D (X : Fin 3 → ℝ) (H M d U l eps : ℝ) : ℝ :=
  let t1 : ℝ := X 0 * X 0+X 1 * X 1;
  let r : ℝ := Real.sqrt (t1);
  let z : ℝ := X 2;
  let t2 : ℝ := M * t1;
  let t4 : ℝ := t2 + 2 * z;
  let t5 : ℝ := H * H;
  let t6 : ℝ := t5 * t5;
  let t7 : ℝ := t6 * M;
  let t8 : ℝ := t1 * t1;
  let t9 : ℝ := t8 * t1;
  let t12 : ℝ := t5 * H;
  let t13 : ℝ := M * M;
  let t14 : ℝ := t12 * t13;
  let t17 : ℝ := t13 * M;
  let t18 : ℝ := t5 * t17;
  let t24 : ℝ := t12 * M;
  let t25 : ℝ := d * t8;
  let t28 : ℝ := t8 * z;
  let t31 : ℝ := t5 * t13;
  let t36 : ℝ := H * t17;
  let t41 : ℝ := t12 * d;
  let t42 : ℝ := t1 * z;
  let t46 : ℝ := z * z;
  let t49 : ℝ := t5 * M;
  let t50 : ℝ := d * d;
  let t51 : ℝ := t50 * t1;
  let t55 : ℝ := d * t1 * z;
  let t58 : ℝ := -32 * t12 * t1 * t46 + 16 * t6 * t8 * z - 40 * t14 * t9 - 20 * t18 * t9 - 136 * t24 * t25 + 56 * t24 * t28 - 160 * t31 * t25 - 24 * t36 * t25 + 64 * t31 * t28 + 24 * t36 * t28 - 32 * t41 * t42 - 208 * t49 * t51 + 224 * t49 * t55 - 20 * t7 * t9;
  let t59 : ℝ := t1 * t46;
  let t62 : ℝ := H * t13;
  let t69 : ℝ := t17 * t50;
  let t72 : ℝ := t17 * d;
  let t78 : ℝ := t5 * t50;
  let t81 : ℝ := t5 * d;
  let t84 : ℝ := H * M;
  let t85 : ℝ := t50 * d;
  let t91 : ℝ := t13 * t85;
  let t93 : ℝ := t13 * t50;
  let t96 : ℝ := t13 * d;
  let t99 : ℝ := 32 * t17 * t1 * t46 + 32 * t84 * t50 * z + 32 * t69 * t1 - 64 * t72 * t42 + 128 * t81 * t46 - 128 * t96 * t46 - 32 * t49 * t59 - 224 * t62 * t51 + 192 * t62 * t55 + 32 * t62 * t59 - 128 * t78 * z - 32 * t84 * t85 + 256 * t93 * z - 128 * t91;
  let t106 : ℝ := (t1 * H + 2 * d + t2) ^ 2;
  let t107 : ℝ := t106 * t106;
  let t108 : ℝ := 1 / t107;
  let t110 : ℝ := 1 / (H + M);
  let t112 : ℝ := (chiTrunc (r) l eps);
  let t116 : ℝ := t8 * t8;
  let t125 : ℝ := t13 * t13;
  let t126 : ℝ := H * t125;
  let t129 : ℝ := t125 * M;
  let t138 : ℝ := d * t9;
  let t141 : ℝ := t9 * z;
  let t152 : ℝ := t125 * d;
  let t166 : ℝ := t50 * t8;
  let t169 : ℝ := 5 * t6 * H * t116 + 40 * t6 * d * t9 + 32 * t12 * t8 * t46 + 120 * t12 * t50 * t8 - 6 * t125 * t9 * z - 22 * t6 * t9 * z - 3 * t126 * t116 - 2 * t129 * t116 + 38 * t14 * t116 + 16 * t18 * t116 + 26 * t7 * t116 + 202 * t24 * t138 + 174 * t31 * t138 - 2 * t36 * t138 - 56 * t24 * t141 - 52 * t31 * t141 - 24 * t36 * t141 - 14 * t152 * t9 + 516 * t49 * t166 - 60 * t41 * t28;
  let t170 : ℝ := t25 * z;
  let t173 : ℝ := t8 * t46;
  let t204 : ℝ := t50 * t50;
  let t207 : ℝ := H * t85;
  let t210 : ℝ := H * t50;
  let t215 : ℝ := M * t85;
  let t218 : ℝ := M * t50;
  let t221 : ℝ := 160 * t5 * t85 * t1 + 472 * t84 * t85 * t1 - 32 * t17 * t8 * t46 - 464 * t84 * t51 * z + 80 * H * t204 + 80 * M * t204 - 72 * t91 * t1 + 160 * t62 * t166 - 276 * t49 * t170 - 180 * t62 * t170 + 32 * t49 * t173 - 32 * t62 * t173 + 112 * t207 * z - 128 * t210 * t46 - 272 * t215 * z + 128 * t218 * t46 + 36 * t72 * t28 + 24 * t78 * t42 - 40 * t93 * t42 - 76 * t69 * t8;
  let t225 : ℝ := (dchiTrunc (r) l eps);
  let t229 : ℝ := t116 * t1;
  let t243 : ℝ := d * t116;
  let t246 : ℝ := t116 * z;
  let t267 : ℝ := t50 * t9;
  let t270 : ℝ := t138 * z;
  let t273 : ℝ := 4 * t125 * t116 * z + 12 * t6 * t116 * z - 16 * t12 * t9 * t46 - 20 * t152 * t116 - 8 * t126 * t229 - 2 * t129 * t229 + 8 * t14 * t229 + 72 * t41 * t141 - 4 * t18 * t229 + 6 * t7 * t229 + 36 * t24 * t243 + 8 * t24 * t246 + 20 * t31 * t243 - 36 * t36 * t243 - 16 * t31 * t246 - 8 * t36 * t246 + 72 * t49 * t267 + 8 * t49 * t270;
  let t274 : ℝ := t9 * t46;
  let t314 : ℝ := -64 * t84 * t166 * z + 16 * t17 * t9 * t46 + 48 * t84 * t85 * t8 - 8 * t72 * t141 - 64 * t81 * t173 + 64 * t96 * t173 + 96 * t207 * t42 - 64 * t210 * t59 - 96 * t215 * t42 + 64 * t218 * t59 - 16 * t62 * t267 - 72 * t62 * t270 - 16 * t49 * t274 + 16 * t62 * t274 + 144 * t78 * t28 - 80 * t93 * t28 - 56 * t69 * t9 - 48 * t91 * t8;
  let t318 : ℝ := (d2chiTrunc (r) l eps);
  t4 * (t99 + t58) * r * t108 * t110 * t112 / 5 + t4 * (t221 + t169) * r * t225 * t108 * t110 / 5 + t4 * (t314 + t273) * r * t318 * t108 * t110 / 5

/-- particle/singularity/UandPTang.hpp:731-804 -/
noncomputable def drU0_tang3D (X : Fin 3 → ℝ) (H M d U l eps : ℝ) : ℝ :=
  let t3 : ℝ := X 0 * X 0+X 1 * X 1;
  let r : ℝ := Real.sqrt (t3);
  let z : ℝ := X 2;
  let t1 : ℝ := H * H;
  let t2 : ℝ := t1 * t1;
  let t4 : ℝ := t3 * t3;
  let t8 : ℝ := t1 * H;
  let t9 : ℝ := t8 * M;
  let t10 : ℝ := d * t4;
  let t13 : ℝ := t4 * z;
  let t16 : ℝ := M * M;
  let t17 : ℝ := t1 * t16;
  let t22 : ℝ := t16 * M;
  let t23 : ℝ := H * t22;
  let t28 : ℝ := t16 * t16;
  let t29 : ℝ := t28 * d;
  let t35 : ℝ := t8 * d;
  let t36 : ℝ := t3 * z;
  let t40 : ℝ := z * z;
  let t43 : ℝ := t1 * M;
  let t44 : ℝ := d * d;
  let t45 : ℝ := t44 * t3;
  let t49 : ℝ := d * t3 * z;
  let t52 : ℝ := 56 * t2 * t4 * z + 56 * t28 * t4 * z - 144 * t8 * t3 * t40 - 24 * t17 * t10 + 24 * t23 * t10 - 104 * t9 * t10 + 48 * t17 * t13 + 80 * t23 * t13 + 80 * t9 * t13 - 56 * t29 * t4 + 32 * t35 * t36 - 224 * t43 * t45 + 576 * t43 * t49;
  let t53 : ℝ := t3 * t40;
  let t56 : ℝ := H * t16;
  let t63 : ℝ := t22 * t44;
  let t66 : ℝ := t22 * d;
  let t72 : ℝ := t1 * t44;
  let t75 : ℝ := t1 * d;
  let t78 : ℝ := H * M;
  let t79 : ℝ := t44 * d;
  let t85 : ℝ := t16 * t79;
  let t87 : ℝ := t16 * t44;
  let t90 : ℝ := t16 * d;
  let t93 : ℝ := 144 * t22 * t3 * t40 + 64 * t78 * t44 * z + 112 * t63 * t3 - 256 * t66 * t36 + 288 * t75 * t40 - 288 * t90 * t40 - 144 * t43 * t53 - 208 * t56 * t45 + 288 * t56 * t49 + 144 * t56 * t53 - 160 * t72 * z - 32 * t78 * t79 + 416 * t87 * z - 128 * t85;
  let t100 : ℝ := (t3 * H + M * t3 + 2 * d) ^ 2;
  let t101 : ℝ := t100 * t100;
  let t102 : ℝ := 1 / t101;
  let t104 : ℝ := 1 / (H + M);
  let t106 : ℝ := (chiTrunc (r) l eps);
  let t110 : ℝ := t4 * t4;
  let t113 : ℝ := t2 * M;
  let t116 : ℝ := t8 * t16;
  let t119 : ℝ := t1 * t22;
  let t122 : ℝ := H * t28;
  let t129 : ℝ := t4 * t3;
  let t135 : ℝ := d * t129;
  let t138 : ℝ := t129 * z;
  let t163 : ℝ := t44 * t4;
  let t166 : ℝ := t10 * z;
  let t169 : ℝ := -56 * t28 * t129 * z + 120 * t8 * t4 * t40 + 120 * t8 * t44 * t4 + 16 * t29 * t129 - 192 * t35 * t13 + 24 * t17 * t135 - 56 * t23 * t135 - 48 * t17 * t138 - 80 * t23 * t138 + 456 * t43 * t163 - 528 * t43 * t166;
  let t171 : ℝ := t4 * t40;
  let t207 : ℝ := t44 * t44;
  let t210 : ℝ := H * t79;
  let t213 : ℝ := H * t44;
  let t218 : ℝ := M * t79;
  let t221 : ℝ := M * t44;
  let t224 : ℝ := 480 * t78 * t79 * t3 - 960 * t78 * t45 * z + 80 * H * t207 + 80 * M * t207 + 128 * t210 * z - 288 * t213 * t40 - 448 * t218 * z + 288 * t221 * t40 - 160 * t85 * t3 + 96 * t87 * t36 - 96 * t90 * t53;
  let t228 : ℝ := (dchiTrunc (r) l eps);
  let t232 : ℝ := t110 * t3;
  let t244 : ℝ := d * t110;
  let t264 : ℝ := t44 * t129;
  let t267 : ℝ := t135 * z;
  let t270 : ℝ := t129 * t40;
  let t273 : ℝ := -48 * t17 * t110 * z + 24 * t2 * t110 * z + 24 * t28 * t110 * z - 48 * t8 * t129 * t40 - 24 * t29 * t110 + 12 * t113 * t232 + 12 * t116 * t232 - 12 * t119 * t232 - 12 * t122 * t232 + 144 * t35 * t138 + 24 * t17 * t244 - 72 * t23 * t244 + 72 * t9 * t244 + 144 * t43 * t264 - 48 * t43 * t267 - 48 * t43 * t270;
  let t311 : ℝ := 48 * t22 * t129 * t40 - 192 * t78 * t163 * z + 96 * t78 * t79 * t4 - 96 * t63 * t129 + 288 * t72 * t13 - 96 * t87 * t13 + 48 * t66 * t138 - 192 * t75 * t171 + 192 * t90 * t171 + 192 * t210 * t36 - 192 * t213 * t53 - 192 * t218 * t36 + 192 * t221 * t53 - 48 * t56 * t264 - 144 * t56 * t267 + 48 * t56 * t270 - 96 * t85 * t4;
  let t314 : ℝ := (d2chiTrunc (r) l eps);
  -2 / 5 * r * (t93 + t52) * t102 * t104 * t106 - 2 / 5 * r * (160 * t1 * t79 * t3 - 120 * t22 * t4 * t40 + 48 * t66 * t13 - 48 * t56 * t163 - 288 * t56 * t166 + 120 * t43 * t171 - 120 * t56 * t171 - 96 * t72 * t36 - 48 * t63 * t4 + 96 * t75 * t53 + t224 + 5 * t2 * H * t110 - 5 * t28 * M * t110 + 40 * t2 * d * t129 - 56 * t2 * t129 * z + 9 * t113 * t110 + 4 * t116 * t110 - 4 * t119 * t110 - 9 * t122 * t110 + 136 * t9 * t135 - 80 * t9 * t138 + t169) * t228 * t102 * t104 - 2 / 5 * r * (t311 + t273) * t314 * t102 * t104

/-- particle/singularity/UandPTang.hpp:806-837 -/
noncomputable def dzU0_tang3D (X : Fin 3 → ℝ) (H M d U l eps : ℝ) : ℝ :=
  let t3 : ℝ := X 0 * X 0+X 1 * X 1;
  let r : ℝ := Real.sqrt (t3);
  let z : ℝ := X 2;
  let t1 : ℝ := H * H;
  let t2 : ℝ := t1 * H;
  let t4 : ℝ := t3 * t3;
  let t7 : ℝ := t1 * M;
  let t10 : ℝ := M * M;
  let t11 : ℝ := H * t10;
  let t14 : ℝ := t10 * M;
  let t17 : ℝ := t1 * d;
  let t23 : ℝ := H * M;
  let t33 : ℝ := d * d;
  let t34 : ℝ := H * t33;
  let t36 : ℝ := H * d;
  let t39 : ℝ := M * t33;
  let t41 : ℝ := M * d;
  let t44 : ℝ := -2 * t10 * d * t3 + 26 * t23 * d * t3 - 18 * t1 * t3 * z + 18 * t10 * t3 * z + 3 * t11 * t4 + 7 * t14 * t4 + 16 * t17 * t3 + 7 * t2 * t4 + 12 * t36 * z + 3 * t7 * t4 - 12 * t41 * z + 4 * t34 + 16 * t39;
  let t48 : ℝ := t3 * H + M * t3 + 2 * d;
  let t49 : ℝ := t48 * t48;
  let t51 : ℝ := 1 / t49 / t48;
  let t54 : ℝ := 1 / (H + M);
  let t55 : ℝ := (chiTrunc (r) l eps);
  let t58 : ℝ := t4 * t3;
  let t80 : ℝ := t3 * z;
  let t87 : ℝ := 12 * t23 * d * t4 + 12 * t1 * t4 * z - 12 * t10 * t4 * z + 3 * t11 * t58 - 3 * t14 * t58 - 12 * t17 * t4 - 3 * t2 * t58 - 12 * t34 * t3 + 12 * t39 * t3 + 24 * t36 * t80 - 24 * t41 * t80 + 3 * t7 * t58;
  let t88 : ℝ := (dchiTrunc (r) l eps);
  8 / 5 * t44 * t51 * t54 * t55 + 8 / 5 * t87 * t88 * t51 * t54

/-- particle/singularity/UandPTang.hpp:839-878 -/
noncomputable def drV0_tang3D (X : Fin 3 → ℝ) (H M d U l eps : ℝ) : ℝ :=
  let t3 : ℝ := X 0 * X 0+X 1 * X 1;
  let r : ℝ := Real.sqrt (t3);
  let z : ℝ := X 2;
  let t1 : ℝ := H * H;
  let t2 : ℝ := t1 * H;
  let t7 : ℝ := t1 * M;
  let t8 : ℝ := d * t3;
  let t11 : ℝ := t3 * z;
  let t14 : ℝ := M * M;
  let t15 : ℝ := H * t14;
  let t20 : ℝ := t14 * M;
  let t21 : ℝ := t20 * d;
  let t27 : ℝ := t1 * d;
  let t30 : ℝ := z * z;
  let t33 : ℝ := H * M;
  let t34 : ℝ := d * d;
  let t40 : ℝ := t14 * t34;
  let t42 : ℝ := t14 * d;
  let t47 : ℝ := 32 * t33 * d * z + 8 * t2 * t3 * z + 8 * t20 * t3 * z + 48 * t1 * t30 + 72 * t15 * t11 + 72 * t7 * t11 - 48 * t14 * t30 - 64 * t15 * t8 - 8 * t21 * t3 + 16 * t27 * z - 16 * t33 * t34 + 112 * t42 * z - 8 * t7 * t8 - 64 * t40;
  let t52 : ℝ := t3 * H + M * t3 + 2 * d;
  let t53 : ℝ := t52 * t52;
  let t55 : ℝ := 1 / t53 / t52;
  let t57 : ℝ := 1 / (H + M);
  let t59 : ℝ := (chiTrunc (r) l eps);
  let t62 : ℝ := t1 * t1;
  let t63 : ℝ := t3 * t3;
  let t64 : ℝ := t63 * t3;
  let t73 : ℝ := t14 * t14;
  let t82 : ℝ := d * t63;
  let t85 : ℝ := t63 * z;
  let t100 : ℝ := -16 * H * t20 * t64 + 16 * t2 * M * t64 + 30 * t2 * d * t63 + 60 * t1 * t34 * t3 - 8 * t2 * t63 * z - 8 * t20 * t63 * z - 2 * t15 * t82 - 72 * t15 * t85 - 22 * t21 * t63 + 5 * t62 * t64 - 5 * t73 * t64 + 74 * t7 * t82 - 72 * t7 * t85;
  let t119 : ℝ := t34 * d;
  let t136 : ℝ := -48 * H * d * t30 - 32 * H * t34 * z + 48 * M * d * t30 - 128 * M * t34 * z - 24 * t1 * t3 * t30 + 24 * t14 * t3 * t30 + 104 * t33 * t34 * t3 - 208 * t33 * t8 * z + 40 * H * t119 + 40 * M * t119 - 32 * t27 * t11 - 80 * t42 * t11 - 4 * t40 * t3;
  let t139 : ℝ := (dchiTrunc (r) l eps);
  2 / 5 * r * t47 * t55 * t57 * t59 + 2 / 5 * r * (t136 + t100) * t139 * t55 * t57

/-- particle/singularity/UandPTang.hpp:881-893 -/
noncomputable def dzV0_tang3D (X : Fin 3 → ℝ) (H M d U l eps : ℝ) : ℝ :=
  let t2 : ℝ := X 0 * X 0+X 1 * X 1;
  let r : ℝ := Real.sqrt (t2);
  let z : ℝ := X 2;
  let t1 : ℝ := H * H;
  let t7 : ℝ := M * M;
  let t18 : ℝ := (chiTrunc (r) l eps);
  let t24 : ℝ := (t2 * H + M * t2 + 2 * d) ^ 2;
  -8 / 5 * (8 * H * M * t2 + 2 * H * d + 6 * H * z + 8 * M * d - 6 * M * z + t1 * t2 + t7 * t2) * t18 / t24 / (H + M)

/-- particle/singularity/UandPTang.hpp:896-1065 -/
noncomputable def drW0_tang3D (X : Fin 3 → ℝ) (H M d U l eps : ℝ) : ℝ :=
  let t6 : ℝ := X 0 * X 0+X 1 * X 1;
  let r : ℝ := Real.sqrt (t6);
  let z : ℝ := X 2;
  let t1 : ℝ := H * H;
  let t2 : ℝ := t1 * t1;
  let t3 : ℝ := t2 * H;
  let t4 : ℝ := M * M;
  let t5 : ℝ := t3 * t4;
  let t7 : ℝ := t6 * t6;
  let t8 : ℝ := t7 * t7;
  let t9 : ℝ := t8 * t6;
  let t12 : ℝ := t4 * M;
  let t13 : ℝ := t2 * t12;
  let t16 : ℝ := t1 * H;
  let t17 : ℝ := t4 * t4;
  let t18 : ℝ := t16 * t17;
  let t21 : ℝ := t17 * M;
  let t22 : ℝ := t1 * t21;
  let t25 : ℝ := t3 * M;
  let t26 : ℝ := t8 * z;
  let t29 : ℝ := t2 * t4;
  let t30 : ℝ := d * t8;
  let t35 : ℝ := t16 * t12;
  let t38 : ℝ := t1 * t17;
  let t43 : ℝ := H * t21;
  let t48 : ℝ := t7 * t6;
  let t50 : ℝ := z * z;
  let t53 : ℝ := t2 * M;
  let t54 : ℝ := d * t48;
  let t55 : ℝ := t54 * z;
  let t58 : ℝ := t48 * t50;
  let t61 : ℝ := -96 * t3 * t48 * t50 - 60 * t13 * t9 - 60 * t18 * t9 - 20 * t22 * t9 + 24 * t25 * t26 + 48 * t29 * t26 - 48 * t38 * t26 - 24 * t43 * t26 - 224 * t29 * t30 - 424 * t35 * t30 - 176 * t38 * t30 + 24 * t43 * t30 - 20 * t5 * t9 + 576 * t53 * t55 - 336 * t53 * t58;
  let t62 : ℝ := t16 * t4;
  let t63 : ℝ := d * d;
  let t64 : ℝ := t63 * t48;
  let t71 : ℝ := t1 * t12;
  let t78 : ℝ := H * t17;
  let t85 : ℝ := t21 * t63;
  let t88 : ℝ := t21 * d;
  let t89 : ℝ := t48 * z;
  let t95 : ℝ := t2 * d;
  let t96 : ℝ := t7 * t50;
  let t100 : ℝ := t50 * z;
  let t103 : ℝ := t16 * M;
  let t104 : ℝ := t63 * t7;
  let t105 : ℝ := t104 * z;
  let t108 : ℝ := d * t7;
  let t109 : ℝ := t108 * t50;
  let t112 : ℝ := 320 * t2 * t7 * t100 - 96 * t21 * t48 * t50 - 320 * t103 * t105 - 1760 * t103 * t109 - 96 * t85 * t48 + 864 * t62 * t55 + 192 * t71 * t55 + 96 * t78 * t55 - 528 * t62 * t58 - 528 * t71 * t58 - 336 * t78 * t58 - 1280 * t62 * t64 - 944 * t71 * t64 + 240 * t78 * t64 + 192 * t88 * t89 + 640 * t95 * t96;
  let t114 : ℝ := t7 * t100;
  let t117 : ℝ := t1 * t4;
  let t118 : ℝ := t63 * d;
  let t119 : ℝ := t118 * t7;
  let t126 : ℝ := H * t12;
  let t135 : ℝ := t17 * t118;
  let t138 : ℝ := t17 * t63;
  let t139 : ℝ := t7 * z;
  let t142 : ℝ := t17 * d;
  let t148 : ℝ := t16 * t63;
  let t149 : ℝ := t6 * t50;
  let t152 : ℝ := t16 * d;
  let t153 : ℝ := t6 * t100;
  let t156 : ℝ := t1 * M;
  let t157 : ℝ := t118 * t6;
  let t158 : ℝ := t157 * z;
  let t162 : ℝ := t63 * t6 * t50;
  let t165 : ℝ := -320 * t100 * t17 * t7 + 640 * t103 * t114 + 3840 * t105 * t117 + 1920 * t105 * t126 - 3840 * t109 * t117 + 160 * t109 * t126 - 640 * t114 * t126 - 1920 * t117 * t119 - 1440 * t119 * t126 + 960 * t135 * t7 - 2240 * t138 * t139 + 1600 * t142 * t96 + 1408 * t148 * t149 - 2176 * t152 * t153 - 2816 * t156 * t158 + 4800 * t156 * t162;
  let t167 : ℝ := d * t6 * t100;
  let t170 : ℝ := H * t4;
  let t171 : ℝ := t63 * t63;
  let t172 : ℝ := t171 * t6;
  let t181 : ℝ := t12 * t171;
  let t184 : ℝ := t12 * t118;
  let t185 : ℝ := t6 * z;
  let t188 : ℝ := t12 * t63;
  let t191 : ℝ := t12 * d;
  let t194 : ℝ := t1 * t118;
  let t197 : ℝ := t1 * t63;
  let t200 : ℝ := H * M;
  let t207 : ℝ := t4 * t171;
  let t210 : ℝ := t4 * t118;
  let t213 : ℝ := t4 * t63;
  let t216 : ℝ := 128 * t118 * t200 * t50 - 128 * t171 * t200 * z + 512 * t100 * t197 - 512 * t100 * t213 - 5120 * t149 * t188 + 2176 * t153 * t191 - 2176 * t156 * t167 - 256 * t158 * t170 - 1728 * t162 * t170 + 2176 * t167 * t170 - 192 * t170 * t172 - 768 * t181 * t6 + 3712 * t184 * t185 - 512 * t194 * t50 - 512 * t207 * z + 1024 * t210 * t50;
  let t220 : ℝ := 1 / (H + M);
  let t225 : ℝ := H * t6 + M * t6 + 2 * d;
  let t226 : ℝ := t225 * t225;
  let t227 : ℝ := t226 * t226;
  let t229 : ℝ := 1 / t227 / t225;
  let t230 : ℝ := (chiTrunc (r) l eps);
  let t233 : ℝ := t2 * t1;
  let t234 : ℝ := t233 * M;
  let t235 : ℝ := t8 * t7;
  let t245 : ℝ := t17 * t4;
  let t246 : ℝ := H * t245;
  let t249 : ℝ := t17 * t12;
  let t255 : ℝ := d * t9;
  let t258 : ℝ := t9 * z;
  let t276 : ℝ := t245 * d;
  let t282 : ℝ := t3 * d;
  let t288 : ℝ := -10 * t245 * t9 * z + 108 * t3 * t50 * t8 + 462 * t255 * t29 + 460 * t255 * t35 + 76 * t255 * t38 - 130 * t255 * t43 - 46 * t258 * t29 + 46 * t258 * t38 + 8 * t258 * t43 + 100 * t26 * t282 - 58 * t276 * t9;
  let t290 : ℝ := t63 * t8;
  let t293 : ℝ := t30 * z;
  let t296 : ℝ := t8 * t50;
  let t325 : ℝ := t2 * t63;
  let t333 : ℝ := t118 * t48;
  let t336 : ℝ := t64 * z;
  let t339 : ℝ := t54 * t50;
  let t342 : ℝ := -320 * t100 * t2 * t48 + 108 * t21 * t50 * t8 + 1200 * t103 * t333 - 1376 * t103 * t336 + 2240 * t103 * t339 - 316 * t26 * t88 - 108 * t293 * t78 + 348 * t296 * t78 + 400 * t325 * t89 - 256 * t58 * t95 - 112 * t8 * t85;
  let t345 : ℝ := t48 * t100;
  let t372 : ℝ := t16 * t118;
  let t379 : ℝ := t171 * t7;
  let t382 : ℝ := t119 * z;
  let t385 : ℝ := t104 * t50;
  let t388 : ℝ := t108 * t100;
  let t395 : ℝ := 320 * t100 * t17 * t48 + 896 * t114 * t152 + 800 * t139 * t372 - 1216 * t142 * t58 - 2208 * t148 * t96 + 1200 * t156 * t379 + 1376 * t156 * t382 + 1440 * t156 * t385 + 896 * t156 * t388 + 3792 * t170 * t379 - 6944 * t170 * t382;
  let t409 : ℝ := t1 * t171;
  let t416 : ℝ := t171 * d;
  let t423 : ℝ := 3840 * t172 * t200 * z + 480 * t200 * t416 * t6 - 896 * t114 * t191 + 928 * t139 * t184 - 2304 * t149 * t194 + 2816 * t153 * t197 + 4128 * t170 * t385 - 896 * t170 * t388 - 1632 * t181 * t7 + 800 * t185 * t409 + 480 * t188 * t96;
  let t427 : ℝ := t4 * t416;
  let t436 : ℝ := H * t416;
  let t439 : ℝ := H * t171;
  let t442 : ℝ := H * t118;
  let t445 : ℝ := M * t416;
  let t448 : ℝ := M * t171;
  let t451 : ℝ := M * t118;
  let t454 : ℝ := -3840 * t157 * t200 * t50 - 512 * t100 * t442 + 512 * t100 * t451 + 6144 * t149 * t210 - 2816 * t153 * t213 - 4640 * t185 * t207 + 480 * t427 * t6 + 320 * t436 * z + 448 * t439 * t50 + 320 * t445 * z - 1088 * t448 * t50;
  let t458 : ℝ := (dchiTrunc (r) l eps);
  let t460 : ℝ := t220 * t229;
  let t462 : ℝ := t8 * t48;
  let t480 : ℝ := d * t235;
  let t483 : ℝ := t235 * z;
  let t511 : ℝ := -20 * t235 * t245 * z - 64 * t3 * t50 * t9 - 148 * t235 * t276 + 200 * t258 * t282 + 852 * t29 * t480 + 244 * t29 * t483 + 1280 * t35 * t480 + 256 * t38 * t480 - 244 * t38 * t483 - 420 * t43 * t480 - 152 * t43 * t483;
  let t513 : ℝ := t63 * t9;
  let t516 : ℝ := t255 * z;
  let t519 : ℝ := t9 * t50;
  let t555 : ℝ := t118 * t8;
  let t558 : ℝ := t290 * z;
  let t561 : ℝ := t30 * t50;
  let t564 : ℝ := 160 * t100 * t2 * t8 - 64 * t21 * t50 * t9 + 800 * t103 * t555 + 6272 * t103 * t558 - 1760 * t103 * t561 - 72 * t258 * t88 + 800 * t26 * t325 - 128 * t296 * t95 - 1192 * t516 * t78 - 224 * t519 * t78 - 704 * t85 * t9;
  let t567 : ℝ := t8 * t100;
  let t600 : ℝ := t171 * t48;
  let t603 : ℝ := t333 * z;
  let t606 : ℝ := t64 * t50;
  let t609 : ℝ := t54 * t100;
  let t616 : ℝ := -160 * t100 * t17 * t8 + 352 * t142 * t296 + 768 * t148 * t58 + 192 * t152 * t345 + 800 * t156 * t600 + 10432 * t156 * t603 - 5184 * t156 * t606 + 192 * t156 * t609 + 2880 * t170 * t600 - 640 * t170 * t603 + 1600 * t372 * t89;
  let t642 : ℝ := 6784 * t200 * t379 * z + 320 * t200 * t416 * t7 - 1152 * t114 * t197 + 1600 * t139 * t409 - 4608 * t170 * t606 - 192 * t170 * t609 - 800 * t181 * t48 - 3712 * t184 * t89 + 1344 * t188 * t58 - 192 * t191 * t345 + 2560 * t194 * t96;
  let t666 : ℝ := -6784 * t119 * t200 * t50 + 1152 * t114 * t213 - 3264 * t139 * t207 + 2048 * t149 * t439 - 3328 * t149 * t448 - 1792 * t153 * t442 + 1792 * t153 * t451 + 640 * t185 * t436 + 640 * t185 * t445 - 896 * t210 * t96 + 320 * t427 * t7;
  let t670 : ℝ := (d2chiTrunc (r) l eps);
  let t673 : ℝ := t8 * t8;
  let t686 : ℝ := t462 * z;
  let t689 : ℝ := d * t462;
  let t709 : ℝ := t480 * z;
  let t712 : ℝ := 48 * t235 * t3 * t50 + 28 * t13 * t673 + 8 * t18 * t673 - 24 * t22 * t673 - 20 * t246 * t673 - 4 * t249 * t673 + 48 * t25 * t686 - 48 * t276 * t462 + 96 * t29 * t686 + 96 * t29 * t689 + 144 * t35 * t689 - 96 * t38 * t686 - 48 * t38 * t689 - 48 * t43 * t686 - 144 * t43 * t689 + 12 * t5 * t673 + 384 * t53 * t709;
  let t713 : ℝ := t235 * t50;
  let t716 : ℝ := t63 * t235;
  let t747 : ℝ := t513 * z;
  let t750 : ℝ := t255 * t50;
  let t753 : ℝ := -64 * t100 * t2 * t9 + 48 * t21 * t235 * t50 + 1152 * t103 * t747 + 192 * t103 * t750 - 192 * t235 * t85 - 96 * t483 * t88 + 384 * t519 * t95 + 48 * t53 * t713 + 480 * t62 * t709 - 96 * t62 * t713 + 288 * t62 * t716 - 288 * t709 * t71 - 480 * t709 * t78 - 96 * t71 * t713 + 192 * t71 * t716 + 48 * t713 * t78 - 288 * t716 * t78;
  let t755 : ℝ := t9 * t100;
  let t758 : ℝ := t118 * t9;
  let t786 : ℝ := t555 * z;
  let t789 : ℝ := t30 * t100;
  let t795 : ℝ := 64 * t100 * t17 * t9 + 192 * t170 * t171 * t8 - 128 * t103 * t755 + 576 * t117 * t747 - 576 * t117 * t750 + 384 * t117 * t758 - 1152 * t126 * t747 - 192 * t126 * t750 + 128 * t126 * t755 - 64 * t126 * t758 - 320 * t135 * t9 - 576 * t138 * t258 + 192 * t142 * t519 + 1152 * t148 * t296 - 384 * t152 * t567 + 1536 * t156 * t786 - 384 * t156 * t789;
  let t833 : ℝ := -1152 * t170 * t290 * t50 - 768 * t200 * t333 * t50 + 768 * t200 * t600 * z - 512 * t114 * t442 + 512 * t114 * t451 - 384 * t170 * t786 + 384 * t170 * t789 - 192 * t181 * t8 - 1152 * t184 * t26 + 384 * t191 * t567 + 1536 * t194 * t58 - 768 * t197 * t345 - 768 * t207 * t89 - 768 * t210 * t58 + 768 * t213 * t345 + 768 * t439 * t96 - 768 * t448 * t96;
  let t836 : ℝ := (d3chiTrunc (r) l eps);
  (t216 + t165 + t112 + t61) * t220 * t229 * t230 / 5 + (-8 * t25 * t258 + 600 * t53 * t290 - 588 * t53 * t293 + 348 * t53 * t296 + 2040 * t62 * t290 - 952 * t62 * t293 + 504 * t62 * t296 + 952 * t71 * t290 - 56 * t71 * t293 + 504 * t71 * t296 - 600 * t78 * t290 - 640 * t103 * t345 + 4432 * t117 * t333 - 4032 * t117 * t336 + 4032 * t117 * t339 - 176 * t126 * t333 - 1184 * t126 * t336 + 320 * t126 * t339 + 640 * t126 * t345 - 976 * t135 * t48 + 1072 * t138 * t89 + 15 * t234 * t235 + 53 * t5 * t235 + 72 * t13 * t235 + 42 * t18 * t235 - t22 * t235 - 15 * t246 * t235 - 6 * t249 * t235 + 150 * t25 * t255 + t423 + t454 + 10 * t233 * t9 * z + t288 + t342 + t395) * t458 * t460 / 5 + (-800 * t126 * t561 - 320 * t126 * t567 - 1408 * t135 * t8 - 1024 * t138 * t26 + 320 * t103 * t567 + 4576 * t117 * t555 + 2784 * t117 * t558 - 2784 * t117 * t561 + 1152 * t126 * t555 - 3712 * t126 * t558 + 10 * t234 * t462 + 92 * t5 * t462 + 198 * t13 * t462 + 128 * t18 * t462 - 34 * t22 * t462 - 60 * t246 * t462 - 14 * t249 * t462 + 100 * t25 * t480 + 152 * t25 * t483 + 400 * t53 * t513 + 1640 * t53 * t516 - 224 * t53 * t519 + 2944 * t62 * t513 + 1632 * t62 * t516 - 352 * t62 * t519 + 2544 * t71 * t513 - 928 * t71 * t516 - 352 * t71 * t519 - 704 * t78 * t513 + 20 * t233 * t235 * z + t666 + t616 + t564 + t642 + t511) * t670 * t460 / 5 + (t833 + t795 + t753 + t712) * t836 * t460 / 5

/-- particle/singularity/UandPTang.hpp:1067-1139 -/
noncomputable def dzW0_tang3D (X : Fin 3 → ℝ) (H M d U l eps : ℝ) : ℝ :=
  let t4 : ℝ := X 0 * X 0+X 1 * X 1;
  let r : ℝ := Real.sqrt (t4);
  let z : ℝ := X 2;
  let t1 : ℝ := H * H;
  let t2 : ℝ := t1 * t1;
  let t3 : ℝ := t2 * M;
  let t5 : ℝ := t4 * t4;
  let t6 : ℝ := t5 * t4;
  let t9 : ℝ := t1 * H;
  let t10 : ℝ := M * M;
  let t11 : ℝ := t9 * t10;
  let t14 : ℝ := t10 * M;
  let t15 : ℝ := t1 * t14;
  let t18 : ℝ := t10 * t10;
  let t19 : ℝ := H * t18;
  let t25 : ℝ := t9 * M;
  let t26 : ℝ := d * t5;
  let t29 : ℝ := t5 * z;
  let t32 : ℝ := t1 * t10;
  let t37 : ℝ := H * t14;
  let t42 : ℝ := t18 * d;
  let t48 : ℝ := t9 * d;
  let t49 : ℝ := t4 * z;
  let t53 : ℝ := z * z;
  let t56 : ℝ := 32 * t18 * t5 * z + 32 * t2 * t5 * z - 96 * t9 * t4 * t53 - 12 * t11 * t6 + 12 * t15 * t6 + 12 * t19 * t6 - 152 * t25 * t26 + 80 * t25 * t29 - 48 * t32 * t26 + 72 * t37 * t26 + 96 * t32 * t29 + 80 * t37 * t29 - 12 * t3 * t6 - 32 * t42 * t5 - 64 * t48 * t49;
  let t57 : ℝ := t1 * M;
  let t58 : ℝ := d * d;
  let t59 : ℝ := t58 * t4;
  let t63 : ℝ := d * t4 * z;
  let t66 : ℝ := t4 * t53;
  let t69 : ℝ := H * t10;
  let t76 : ℝ := t14 * t58;
  let t79 : ℝ := t14 * d;
  let t85 : ℝ := t1 * t58;
  let t88 : ℝ := t1 * d;
  let t91 : ℝ := H * M;
  let t92 : ℝ := t58 * d;
  let t98 : ℝ := t10 * t92;
  let t100 : ℝ := t10 * t58;
  let t103 : ℝ := t10 * d;
  let t106 : ℝ := 96 * t14 * t4 * t53 + 64 * t91 * t58 * z + 512 * t100 * z - 384 * t103 * t53 + 160 * t76 * t4 - 256 * t79 * t49 + 384 * t88 * t53 - 272 * t57 * t59 + 576 * t57 * t63 - 96 * t57 * t66 - 208 * t69 * t59 + 384 * t69 * t63 + 96 * t69 * t66 - 256 * t85 * z - 32 * t91 * t92 - 128 * t98;
  let t113 : ℝ := (t4 * H + M * t4 + 2 * d) ^ 2;
  let t114 : ℝ := t113 * t113;
  let t115 : ℝ := 1 / t114;
  let t117 : ℝ := 1 / (H + M);
  let t119 : ℝ := (chiTrunc (r) l eps);
  let t123 : ℝ := t5 * t5;
  let t143 : ℝ := d * t6;
  let t146 : ℝ := t6 * z;
  let t170 : ℝ := t58 * t5;
  let t173 : ℝ := 5 * t2 * H * t123 - 5 * t18 * M * t123 + 40 * t2 * d * t6 - 44 * t18 * t6 * z - 44 * t2 * t6 * z + 96 * t9 * t5 * t53 + 120 * t9 * t58 * t5 + 10 * t11 * t123 - 10 * t15 * t123 - 15 * t19 * t123 + 15 * t3 * t123 + 172 * t25 * t143 + 36 * t32 * t143 - 92 * t37 * t143 - 80 * t25 * t146 - 72 * t32 * t146 - 80 * t37 * t146 + 528 * t57 * t170 - 120 * t48 * t29 + 4 * t42 * t6;
  let t174 : ℝ := t26 * z;
  let t177 : ℝ := t5 * t53;
  let t208 : ℝ := t58 * t58;
  let t211 : ℝ := H * t92;
  let t214 : ℝ := H * t58;
  let t219 : ℝ := M * t92;
  let t222 : ℝ := M * t58;
  let t225 : ℝ := 160 * t1 * t92 * t4 - 96 * t14 * t5 * t53 + 528 * t91 * t92 * t4 - 1056 * t91 * t59 * z + 80 * H * t208 + 80 * M * t208 + 48 * t100 * t49 - 72 * t69 * t170 - 552 * t57 * t174 - 360 * t69 * t174 + 96 * t57 * t177 - 96 * t69 * t177 + 224 * t211 * z - 384 * t214 * t53 - 544 * t219 * z + 384 * t222 * t53 + 72 * t79 * t29 - 208 * t98 * t4 + 48 * t85 * t49 - 96 * t76 * t5;
  let t228 : ℝ := (dchiTrunc (r) l eps);
  let t232 : ℝ := t123 * t4;
  let t244 : ℝ := d * t123;
  let t264 : ℝ := t58 * t6;
  let t267 : ℝ := t143 * z;
  let t270 : ℝ := t6 * t53;
  let t273 : ℝ := 24 * t18 * t123 * z + 24 * t2 * t123 * z - 48 * t32 * t123 * z - 48 * t9 * t6 * t53 + 12 * t11 * t232 - 24 * t42 * t123 + 144 * t48 * t146 - 12 * t15 * t232 - 12 * t19 * t232 + 12 * t3 * t232 + 72 * t25 * t244 + 24 * t32 * t244 - 72 * t37 * t244 + 144 * t57 * t264 - 48 * t57 * t267 - 48 * t57 * t270;
  let t311 : ℝ := 48 * t14 * t6 * t53 - 192 * t91 * t170 * z + 96 * t91 * t92 * t5 - 96 * t100 * t29 + 192 * t103 * t177 + 48 * t79 * t146 - 192 * t88 * t177 + 192 * t211 * t49 - 192 * t214 * t66 - 192 * t219 * t49 + 192 * t222 * t66 - 48 * t69 * t264 - 144 * t69 * t267 + 48 * t69 * t270 + 288 * t85 * t29 - 96 * t98 * t5 - 96 * t76 * t6;
  let t314 : ℝ := (d2chiTrunc (r) l eps);
  2 / 5 * r * (t106 + t56) * t115 * t117 * t119 + 2 / 5 * r * (t225 + t173) * t228 * t115 * t117 + 2 / 5 * r * (t311 + t273) * t314 * t115 * t117

/-- particle/singularity/UandPTang.hpp:1141-1152 -/
noncomputable def ur_sing_tangMvt3D (X : Fin 3 → ℝ) (H M d U l eps : ℝ) : ℝ :=
  let r2 : ℝ := X 0 * X 0+X 1 * X 1;
  let cosTheta : ℝ := if r2 ≠ 0 then X 0/Real.sqrt (r2) else 1;
  U*(U0_tang3D X H M d U l eps)*cosTheta/2

/-- particle/singularity/UandPTang.hpp:1154-1165 -/
noncomputable def ut_sing_tangMvt3D (X : Fin 3 → ℝ) (H M d U l eps : ℝ) : ℝ :=
  let r2 : ℝ := X 0 * X 0+X 1 * X 1;
  let sinTheta : ℝ := if r2 ≠ 0 then X 1/Real.sqrt (r2) else 0;
  U*(V0_tang3D X H M d U l eps)*sinTheta/2

/-- particle/singularity/UandPTang.hpp:1167-1180 -/
noncomputable def uz_sing_tangMvt3D (X : Fin 3 → ℝ) (H M d U l eps : ℝ) : ℝ :=
  let r2 : ℝ := X 0 * X 0+X 1 * X 1;
  let cosTheta : ℝ := if r2 ≠ 0 then X 0/Real.sqrt (r2) else 1;
  U*(W0_tang3D X H M d U l eps)*cosTheta/2

/-- particle/singularity/UandPTang.hpp:1182-1193 -/
noncomputable def drur_sing_tangMvt3D (X : Fin 3 → ℝ) (H M d U l eps : ℝ) : ℝ :=
  let r2 : ℝ := X 0 * X 0+X 1 * X 1;
  let cosTheta : ℝ := if r2 ≠ 0 then X 0/Real.sqrt (r2) else 1;
  U*(drU0_tang3D X H M d U l eps)*cosTheta/2

/-- particle/singularity/UandPTang.hpp:1195-1206 -/
noncomputable def dtur_sing_tangMvt3D (X : Fin 3 → ℝ) (H M d U l eps : ℝ) : ℝ :=
  let r2 : ℝ := X 0 * X 0+X 1 * X 1;
  let sinTheta : ℝ := if r2 ≠ 0 then X 1/Real.sqrt (r2) else 0;
  -U*(U0_tang3D X H M d U l eps)*sinTheta/2

/-- particle/singularity/UandPTang.hpp:1208-1219 -/
noncomputable def dzur_sing_tangMvt3D (X : Fin 3 → ℝ) (H M d U l eps : ℝ) : ℝ :=
  let r2 : ℝ := X 0 * X 0+X 1 * X 1;
  let cosTheta : ℝ := if r2 ≠ 0 then X 0/Real.sqrt (r2) else 1;
  U*(dzU0_tang3D X H M d U l eps)*cosTheta/2

/-- particle/singularity/UandPTang.hpp:1221-1232 -/
noncomputable def drut_sing_tangMvt3D (X : Fin 3 → ℝ) (H M d U l eps : ℝ) : ℝ :=
  let r2 : ℝ := X 0 * X 0+X 1 * X 1;
  let sinTheta : ℝ := if r2 ≠ 0 then X 1/Real.sqrt (r2) else 0;
  U*(drV0_tang3D X H M d U l eps)*sinTheta/2

/-- particle/singularity/UandPTang.hpp:1234-1245 -/
noncomputable def dtut_sing_tangMvt3D (X : Fin 3 → ℝ) (H M d U l eps : ℝ) : ℝ :=
  let r2 : ℝ := X 0 * X 0+X 1 * X 1;
  let cosTheta : ℝ := if r2 ≠ 0 then X 0/Real.sqrt (r2) else 1;
  U*(V0_tang3D X H M d U l eps)*cosTheta/2

/-- particle/singularity/UandPTang.hpp:1247-1258 -/
noncomputable def dzut_sing_tangMvt3D (X : Fin 3 → ℝ) (H M d U l eps : ℝ) : ℝ :=
  let r2 : ℝ := X 0 * X 0+X 1 * X 1;
  let sinTheta : ℝ := if r2 ≠ 0 then X 1/Real.sqrt (r2) else 0;
  U*(dzV0_tang3D X H M d U l eps)*sinTheta/2

/-- particle/singularity/UandPTang.hpp:1260-1271 -/
noncomputable def druz_sing_tangMvt3D (X : Fin 3 → ℝ) (H M d U l eps : ℝ) : ℝ :=
  let r2 : ℝ := X 0 * X 0+X 1 * X 1;
  let cosTheta : ℝ := if r2 ≠ 0 then X 0/Real.sqrt (r2) else 1;
  U*(drW0_tang3D X H M d U l eps)*cosTheta/2

/-- particle/singularity/UandPTang.hpp:1273-1284 -/
noncomputable def dtuz_sing_tangMvt3D (X : Fin 3 → ℝ) (H M d U l eps : ℝ) : ℝ :=
  let r2 : ℝ := X 0 * X 0+X 1 * X 1;
  let sinTheta : ℝ := if r2 ≠ 0 then X 1/Real.sqrt (r2) else 0;
  - U*(W0_tang3D X H M d U l eps)*sinTheta/2

/-- particle/singularity/UandPTang.hpp:1286-1297 -/
noncomputable def dzuz_sing_tangMvt3D (X : Fin 3 → ℝ) (H M d U l eps : ℝ) : ℝ :=
  let r2 : ℝ := X 0 * X 0+X 1 * X 1;
  let cosTheta : ℝ := if r2 ≠ 0 then X 0/Real.sqrt (r2) else 1;
  U*(dzW0_tang3D X H M d U l eps)*cosTheta/2

/-- particle/singularity/UandPTang.hpp:1302-1314 -/
noncomputable def ux_sing_tangMvt3D (X : Fin 3 → ℝ) (H M d U l eps : ℝ) : ℝ :=
  let r2 : ℝ := X 0 * X 0+X 1 * X 1;
  let r : ℝ := Real.sqrt (r2);
  if r2 ≠ 0 then (ur_sing_tangMvt3D X H M d U l eps)*X 0/r - (ut_sing_tangMvt3D X H M d U l eps)*X 1/r else (ur_sing_tangMvt3D X H M d U l eps)

/-- particle/singularity/UandPTang.hpp:1316-1327 -/
noncomputable def uy_sing_tangMvt3D (X : Fin 3 → ℝ) (H M d U l eps : ℝ) : ℝ :=
  let r2 : ℝ := X 0 * X 0+X 1 * X 1;
  let r : ℝ := Real.sqrt (r2);
  if r2 ≠ 0 then (ur_sing_tangMvt3D X H M d U l eps)*X 1/r + (ut_sing_tangMvt3D X H M d U l eps)*X 0/r else (ut_sing_tangMvt3D X H M d U l eps)

/-- particle/singularity/UandPTang.hpp:1343-1361 -/
noncomputable def dxux_sing_tangMvt3D (X : Fin 3 → ℝ) (H M d U l eps : ℝ) : ℝ :=
  let r2 : ℝ := X 0 * X 0+X 1 * X 1;
  let r : ℝ := Real.sqrt (r2);
  let x2 : ℝ := X 0 * X 0;
  let y2 : ℝ := X 1 * X 1;
  let xy : ℝ := X 0 * X 1;
  if r2 ≠ 0 then (drur_sing_tangMvt3D X H M d U l eps)*x2/r2 + (ur_sing_tangMvt3D X H M d U l eps)*y2/r2/r - (dtur_sing_tangMvt3D X H M d U l eps)*xy/r2/r + (ut_sing_tangMvt3D X H M d U l eps)*xy/r2/r - (drut_sing_tangMvt3D X H M d U l eps)*xy/r2 + (dtut_sing_tangMvt3D X H M d U l eps)*y2/r2/r else 0

/-- particle/singularity/UandPTang.hpp:1363-1381 -/
noncomputable def dyux_sing_tangMvt3D (X : Fin 3 → ℝ) (H M d U l eps : ℝ) : ℝ :=
  let r2 : ℝ := X 0 * X 0+X 1 * X 1;
  let r : ℝ := Real.sqrt (r2);
  let x2 : ℝ := X 0 * X 0;
  let y2 : ℝ := X 1 * X 1;
  let xy : ℝ := X 0 * X 1;
  if r2 ≠ 0 then (drur_sing_tangMvt3D X H M d U l eps)*xy/r2 - (ur_sing_tangMvt3D X H M d U l eps)*xy/r2/r + (dtur_sing_tangMvt3D X H M d U l eps)*x2/r2/r - (ut_sing_tangMvt3D X H M d U l eps)*x2/r2/r - (drut_sing_tangMvt3D X H M d U l eps)*y2/r2 - (dtut_sing_tangMvt3D X H M d U l eps)*xy/r2/r else 0

/-- particle/singularity/UandPTang.hpp:1383-1393 -/
noncomputable def dzux_sing_tangMvt3D (X : Fin 3 → ℝ) (H M d U l eps : ℝ) : ℝ :=
  let r2 : ℝ := X 0 * X 0+X 1 * X 1;
  let r : ℝ := Real.sqrt (r2);
  if r2 ≠ 0 then (dzur_sing_tangMvt3D X H M d U l eps)*X 0/r - (dzut_sing_tangMvt3D X H M d U l eps)*X 1/r else (dzur_sing_tangMvt3D X H M d U l eps)

/-- particle/singularity/UandPTang.hpp:1395-1413 -/
noncomputable def dxuy_sing_tangMvt3D (X : Fin 3 → ℝ) (H M d U l eps : ℝ) : ℝ :=
  let r2 : ℝ := X 0 * X 0+X 1 * X 1;
  let r : ℝ := Real.sqrt (r2);
  let x2 : ℝ := X 0 * X 0;
  let y2 : ℝ := X 1 * X 1;
  let xy : ℝ := X 0 * X 1;
  if r2 ≠ 0 then (drur_sing_tangMvt3D X H M d U l eps)*xy/r2 - (ur_sing_tangMvt3D X H M d U l eps)*xy/r2/r - (dtur_sing_tangMvt3D X H M d U l eps)*y2/r2/r + (ut_sing_tangMvt3D X H M d U l eps)*y2/r2/r + (drut_sing_tangMvt3D X H M d U l eps)*x2/r2 - (dtut_sing_tangMvt3D X H M d U l eps)*xy/r2/r else 0

/-- particle/singularity/UandPTang.hpp:1415-1433 -/
noncomputable def dyuy_sing_tangMvt3D (X : Fin 3 → ℝ) (H M d U l eps : ℝ) : ℝ :=
  let r2 : ℝ := X 0 * X 0+X 1 * X 1;
  let r : ℝ := Real.sqrt (r2);
  let x2 : ℝ := X 0 * X 0;
  let y2 : ℝ := X 1 * X 1;
  let xy : ℝ := X 0 * X 1;
  if r2 ≠ 0 then (drur_sing_tangMvt3D X H M d U l eps)*y2/r2 + (ur_sing_tangMvt3D X H M d U l eps)*x2/r2/r + (dtur_sing_tangMvt3D X H M d U l eps)*xy/r2/r - (ut_sing_tangMvt3D X H M d U l eps)*xy/r2/r + (drut_sing_tangMvt3D X H M d U l eps)*xy/r2 + (dtut_sing_tangMvt3D X H M d U l eps)*x2/r2/r else 0

/-- particle/singularity/UandPTang.hpp:1435-1445 -/
noncomputable def dzuy_sing_tangMvt3D (X : Fin 3 → ℝ) (H M d U l eps : ℝ) : ℝ :=
  let r2 : ℝ := X 0 * X 0+X 1 * X 1;
  let r : ℝ := Real.sqrt (r2);
  if r2 ≠ 0 then (dzur_sing_tangMvt3D X H M d U l eps)*X 1/r + (dzut_sing_tangMvt3D X H M d U l eps)*X 0/r else (dzut_sing_tangMvt3D X H M d U l eps)

/-- particle/singularity/UandPTang.hpp:1447-1457 -/
noncomputable def dxuz_sing_tangMvt3D (X : Fin 3 → ℝ) (H M d U l eps : ℝ) : ℝ :=
  let r2 : ℝ := X 0 * X 0+X 1 * X 1;
  let r : ℝ := Real.sqrt (r2);
  if r2 ≠ 0 then (druz_sing_tangMvt3D X H M d U l eps)*X 0/r - (dtuz_sing_tangMvt3D X H M d U l eps)*X 1/r2 else 0

/-- particle/singularity/UandPTang.hpp:1459-1469 -/
noncomputable def dyuz_sing_tangMvt3D (X : Fin 3 → ℝ) (H M d U l eps : ℝ) : ℝ :=
  let r2 : ℝ := X 0 * X 0+X 1 * X 1;
  let r : ℝ := Real.sqrt (r2);
  if r2 ≠ 0 then (druz_sing_tangMvt3D X H M d U l eps)*X 1/r + (dtuz_sing_tangMvt3D X H M d U l eps)*X 0/r2 else 0

/-- particle/singularity/UandPTang.hpp:1471-1485 -/
noncomputable def DIVCYLIND_tangMvt3D (X : Fin 3 → ℝ) (H M d U l eps : ℝ) : ℝ :=
  let r2 : ℝ := X 0 * X 0+X 1 * X 1;
  let r : ℝ := Real.sqrt (r2);
  (drU0_tang3D X H M d U l eps) + (U0_tang3D X H M d U l eps)/r + (V0_tang3D X H M d U l eps)/r + (dzW0_tang3D X H M d U l eps)

/-- particle/singularity/UandPTang.hpp:1487-1492 -/
noncomputable def DIVCART_tangMvt3D (X : Fin 3 → ℝ) (H M d U l eps : ℝ) : ℝ :=
  (dxux_sing_tangMvt3D X H M d U l eps) + (dyuy_sing_tangMvt3D X H M d U l eps) + (dzuz_sing_tangMvt3D X H M d U l eps)

end Cafes.Sing
