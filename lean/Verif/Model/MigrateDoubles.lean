import Verif.Model.Migrate

/-!
# The arithmetic of the migration kernel in double precision

`Arith` and `MaxArith` of `Verif/Model/Migrate.lean` with a rounding after every operation of
`core/src/migratelib.c` and of lines 93-94 of `core/lib.py`.  The rounding, `log` and `exp` are parameters.
Not modelled: overflow, subnormal numbers, infinities and NaN.
-/

namespace QM.Migrate

/-- What the processor and the mathematical library provide: the rounding of a result to a double, and the
computed `log` and `exp` (core/lib.py:94, core/src/migratelib.c:62). -/
structure Fpu where
  fl : ℝ → ℝ
  log : ℝ → ℝ
  exp : ℝ → ℝ

/-- The arithmetic of `migrate` in doubles: `stack[sample] += onsets[...]`, `exp(stack[sample] /
available)`, in which the conversion of the `int32_t` to double is exact, and `np.log(np.clip(onsets, 0.01,
np.inf))`, in which 0.01 is the double next to it (core/src/migratelib.c:57-62, core/lib.py:93-94). -/
noncomputable def Fpu.arith (D : Fpu) : Arith ℝ :=
  ⟨0, fun x y => D.fl (x + y), fun x n => D.exp (D.fl (x / (n : ℝ))),
    fun x => D.log (max (D.fl (1 / 100)) x)⟩

/-- The arithmetic of `find_max_coa` in doubles: `sum += current`, `current > max`, and `max * n_nodes /
sum`, in which the `int64_t` is converted to double (core/src/migratelib.c:101-108). -/
noncomputable def Fpu.maxArith (D : Fpu) : MaxArith ℝ :=
  ⟨0, fun x y => D.fl (x + y), fun x y => decide (x > y), fun m n s => D.fl (D.fl (m * D.fl n) / s)⟩

end QM.Migrate
