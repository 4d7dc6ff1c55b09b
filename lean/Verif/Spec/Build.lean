import Mathlib.Init
/-! # The head of `src/lib.rs` the build script asks for -/

namespace Apf

/-- A lower-case hexadecimal digit. -/
def IsHexDigit (c : Char) : Prop := c ∈ "0123456789abcdef".toList

/-- The fixed text at the beginning of `src/lib.rs`. -/
def linkHead : List Char := ("//! Port of LLVM's APFloat software floating-point implementation from the\n//! following C++ sources (please update commit hash when "
  ++ "backporting):\n//! <https://github.com/llvm/llvm-project/commit/").toList

/-- The head of `src/lib.rs` for the LLVM commit `hash`: two fixed lines and a link. -/
def headOf (hash : List Char) : List Char := linkHead ++ hash ++ ['>', '\n']

end Apf
