import Verif.Model.Prelude
/-! # The build scripts: build.rs, and the version in fuzz/build.rs

The build fails unless the first lines of `src/lib.rs` name the LLVM commit the sources were ported from and the version of the package ends with its hash.

Not modelled: printing, and reading the environment variable (a parameter; cargo always sets it). -/

namespace Apf.Build

/-- `str::strip_prefix` (build.rs:15). -/
def stripPrefix : List Char → List Char → Option (List Char)
  | [], s => some s
  | _ :: _, [] => none
  | p :: ps, c :: s => if p = c then stripPrefix ps s else none

/-- `str::split_once(c)` (build.rs:20): the parts before and after the first `c`. -/
def splitOnce (c : Char) : List Char → Option (List Char × List Char)
  | [] => none
  | d :: s => if d = c then some ([], s) else (splitOnce c s).map (fun (a, b) => (d :: a, b))

/-- `str::strip_suffix` (build.rs:23). -/
def stripSuffix (suf s : List Char) : Option (List Char) := (stripPrefix suf.reverse s.reverse).map List.reverse

/-- `str::ends_with` (build.rs:40). -/
def endsWith (s suf : List Char) : Bool := (stripSuffix suf s).isSome

/-- `str::len` (build.rs:27): the length in UTF-8. -/
def utf8Len (s : List Char) : Nat := (s.map (fun c => c.utf8Size)).sum

/-- Slicing `&s[..n]` (build.rs:38): panics unless `n` is the boundary of a character. -/
def sliceTo : Nat → List Char → M (List Char)
  | 0, _ => .ok []
  | _ + 1, [] => .error .index
  | n + 1, c :: s => if c.utf8Size ≤ n + 1 then do let r ← sliceTo (n + 1 - c.utf8Size) s; .ok (c :: r) else .error .index
termination_by n => n
decreasing_by have := c.utf8Size_pos; omega

/-- build.rs:4-7 `EXPECTED_SRC_LIB_RS_PREFIX`. -/
def expectedPrefix : List Char :=
  ("//! Port of LLVM's APFloat software floating-point implementation from the\n" ++
   "//! following C++ sources (please update commit hash when backporting):\n" ++
   "//! <https://github.com/llvm/llvm-project/commit/").toList

/-- build.rs:27: `matches!(c, '0'..='9' | 'a'..='f')`. -/
def isHex (c : Char) : Bool := ('0' ≤ c && c ≤ '9') || ('a' ≤ c && c ≤ 'f')

/-- build.rs:14-36: the hash, or the panic of line 35. -/
def commitHash (src : List Char) : M (List Char) :=
  match stripPrefix expectedPrefix src with
  | none => .error .assert
  | some rest =>
    match splitOnce '\n' rest with
    | none => .error .assert
    | some (line, _) =>
      match stripSuffix ['>'] line with
      | none => .error .assert
      | some hash => if utf8Len hash ≠ 40 || !hash.all isHex then .error .assert else .ok hash

/-- build.rs:9-44 `main`. -/
def main (src version : List Char) : M Unit := do
  let hash ← commitHash src
  let short ← sliceTo 12 hash
  massert (endsWith version ("+llvm-".toList ++ short))

/-- `str::split_once(p)` for a string `p` (fuzz/build.rs:11): the parts before and after its first occurrence. -/
def splitOnceStr (p : List Char) : List Char → Option (List Char × List Char)
  | [] => (stripPrefix p []).map (fun r => ([], r))
  | c :: s =>
    match stripPrefix p (c :: s) with
    | some r => some ([], r)
    | none => (splitOnceStr p s).map (fun (a, b) => (c :: a, b))

/-- fuzz/build.rs:10-12: the revision of LLVM whose sources the fuzzing tool is compared with; the version of the package is that of the workspace
(fuzz/Cargo.toml:3). -/
def fuzzCommit (version : List Char) : M (List Char) :=
  match splitOnceStr "+llvm-".toList version with
  | none => .error .unwrap
  | some (_, hash) => do
    massert (utf8Len hash = 12)
    .ok hash

end Apf.Build
