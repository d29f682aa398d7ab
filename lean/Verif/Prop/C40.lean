import Verif.Model.Symbols

/-!
# C40 — declared functions are defined

(violated for five functions)
-/
namespace WB

/-- C40 is false: there are declared functions without a definition. -/
theorem C40_violated : ¬ ∀ f ∈ declared, f ∈ defined := by decide +kernel

/-- What holds of C40: exactly five of the declared functions have no definition. Missing: those five. -/
theorem C40_partial (f : String) (hf : f ∈ declared) :
    f ∈ defined ∨ f ∈ ["printbitM256", "affineU256", "HWU256", "genaffinepairM256", "affinemixM256"] := by
  have : ∀ f ∈ declared, f ∈ defined ∨ f ∈ ["printbitM256", "affineU256", "HWU256", "genaffinepairM256", "affinemixM256"] := by
    decide +kernel
  exact this f hf

/-- The five functions are declared and not defined. -/
theorem C40_missing_violated (f : String) (hf : f ∈ ["printbitM256", "affineU256", "HWU256", "genaffinepairM256", "affinemixM256"]) :
    f ∈ declared ∧ f ∉ defined := by
  have : ∀ f ∈ ["printbitM256", "affineU256", "HWU256", "genaffinepairM256", "affinemixM256"], f ∈ declared ∧ f ∉ defined := by
    decide +kernel
  exact this f hf

/-- No function is defined twice. -/
theorem C40_unique : defined.Nodup := by decide +kernel

example : "MatMulMatM128" ∈ declared ∧ "MatMulMatM128" ∈ defined := by decide +kernel

end WB
