import Verif.Lemmas.StandEnd
import Verif.Model.CoreFth

/-!
# The text of core.fth
-/

namespace Verif
open Spec Stack

/-- The text of core.fth as character codes. -/
def coreCodes : List Nat := [
  58, 32, 50, 42, 32, 40, 32, 110, 32, 45, 45, 32, 110, 42, 50, 32, 41, 32, 32, 32, 50, 32, 42, 32, 59, 10, 58, 32,
  50, 47, 32, 40, 32, 110, 32, 45, 45, 32, 110, 47, 50, 32, 41, 32, 32, 32, 50, 32, 47, 32, 59, 10, 51, 50, 32, 99,
  111, 110, 115, 116, 97, 110, 116, 32, 98, 108, 10, 58, 32, 115, 112, 97, 99, 101, 32, 40, 32, 45, 45, 32, 41, 32,
  32, 32, 51, 50, 32, 101, 109, 105, 116, 32, 59, 10, 58, 32, 115, 112, 97, 99, 101, 115, 32, 40, 32, 110, 32, 45,
  45, 32, 41, 32, 32, 32, 48, 32, 98, 101, 103, 105, 110, 32, 50, 100, 117, 112, 32, 62, 32, 119, 104, 105, 108, 101,
  32, 49, 43, 32, 115, 112, 97, 99, 101, 32, 114, 101, 112, 101, 97, 116, 32, 50, 100, 114, 111, 112, 32, 59, 10, 58,
  32, 46, 32, 40, 32, 110, 32, 45, 45, 32, 41, 32, 32, 32, 48, 32, 46, 114, 32, 115, 112, 97, 99, 101, 32, 59, 10,
  58, 32, 102, 46, 32, 40, 32, 70, 58, 32, 114, 32, 45, 45, 32, 41, 32, 32, 32, 48, 32, 55, 32, 102, 46, 114, 32,
  115, 112, 97, 99, 101, 32, 59, 10, 58, 32, 63, 32, 40, 32, 97, 100, 100, 114, 32, 45, 45, 32, 41, 32, 32, 32, 64,
  32, 46, 32, 59, 10, 58, 32, 100, 101, 99, 105, 109, 97, 108, 32, 32, 32, 49, 48, 32, 98, 97, 115, 101, 32, 33, 32,
  59, 10, 58, 32, 104, 101, 120, 32, 32, 32, 49, 54, 32, 98, 97, 115, 101, 32, 33, 32, 59, 10, 58, 32, 104, 46, 32,
  40, 32, 110, 32, 45, 45, 32, 41, 32, 32, 32, 98, 97, 115, 101, 32, 64, 32, 115, 119, 97, 112, 32, 32, 104, 101,
  120, 32, 46, 32, 98, 97, 115, 101, 32, 33, 32, 59, 10, 58, 32, 104, 46, 114, 32, 40, 32, 110, 49, 32, 110, 50, 32,
  45, 45, 32, 41, 32, 32, 32, 98, 97, 115, 101, 32, 64, 32, 62, 114, 32, 32, 104, 101, 120, 32, 46, 114, 32, 32, 114,
  62, 32, 98, 97, 115, 101, 32, 33, 32, 59, 10, 58, 32, 60, 61, 32, 40, 32, 110, 49, 32, 110, 50, 32, 45, 45, 32,
  102, 108, 97, 103, 41, 32, 32, 32, 62, 32, 105, 110, 118, 101, 114, 116, 32, 59, 10, 58, 32, 62, 61, 32, 40, 32,
  110, 49, 32, 110, 50, 32, 45, 45, 32, 102, 108, 97, 103, 41, 32, 32, 32, 60, 32, 105, 110, 118, 101, 114, 116, 32,
  59, 10, 58, 32, 102, 62, 32, 40, 32, 45, 45, 32, 102, 108, 97, 103, 32, 41, 32, 40, 32, 70, 58, 32, 114, 49, 32,
  114, 50, 32, 45, 45, 32, 41, 32, 32, 102, 115, 119, 97, 112, 32, 102, 60, 32, 59, 10, 58, 32, 63, 100, 117, 112,
  32, 40, 32, 120, 32, 45, 45, 32, 48, 32, 124, 32, 120, 32, 120, 32, 41, 32, 32, 32, 100, 117, 112, 32, 105, 102,
  32, 100, 117, 112, 32, 116, 104, 101, 110, 32, 59, 10, 58, 32, 116, 117, 99, 107, 32, 40, 32, 110, 49, 32, 110, 50,
  32, 45, 45, 32, 110, 50, 32, 110, 49, 32, 110, 50, 32, 41, 32, 32, 32, 115, 119, 97, 112, 32, 111, 118, 101, 114,
  32, 59, 10, 58, 32, 99, 114, 32, 40, 32, 45, 45, 32, 41, 32, 32, 32, 49, 48, 32, 101, 109, 105, 116, 32, 59, 10,
  58, 32, 102, 44, 32, 40, 32, 70, 58, 32, 114, 32, 45, 45, 32, 41, 32, 32, 32, 104, 101, 114, 101, 32, 32, 49, 32,
  102, 108, 111, 97, 116, 115, 32, 97, 108, 108, 111, 116, 32, 32, 102, 33, 32, 59, 10, 58, 32, 50, 64, 32, 40, 32,
  97, 45, 97, 100, 100, 114, 32, 45, 45, 32, 120, 49, 32, 120, 50, 32, 41, 32, 32, 32, 100, 117, 112, 32, 99, 101,
  108, 108, 43, 32, 64, 32, 115, 119, 97, 112, 32, 64, 32, 59, 10, 58, 32, 50, 33, 32, 40, 32, 120, 49, 32, 120, 50,
  32, 97, 45, 97, 100, 100, 114, 32, 45, 45, 32, 41, 32, 32, 32, 115, 119, 97, 112, 32, 111, 118, 101, 114, 32, 33,
  32, 32, 99, 101, 108, 108, 43, 32, 33, 32, 59, 10, 58, 32, 43, 33, 32, 40, 32, 110, 124, 117, 32, 97, 45, 97, 100,
  100, 114, 32, 45, 45, 32, 41, 32, 32, 32, 100, 117, 112, 32, 64, 32, 114, 111, 116, 32, 43, 32, 115, 119, 97, 112,
  32, 33, 32, 59, 10, 58, 32, 50, 44, 32, 40, 32, 110, 49, 32, 110, 50, 32, 45, 45, 32, 41, 32, 32, 32, 104, 101,
  114, 101, 32, 32, 50, 32, 99, 101, 108, 108, 115, 32, 97, 108, 108, 111, 116, 32, 32, 50, 33, 32, 59, 10, 58, 32,
  109, 97, 120, 32, 40, 32, 110, 49, 32, 110, 50, 32, 45, 45, 32, 110, 51, 32, 41, 32, 32, 32, 50, 100, 117, 112, 32,
  60, 32, 105, 102, 32, 110, 105, 112, 32, 101, 108, 115, 101, 32, 100, 114, 111, 112, 32, 116, 104, 101, 110, 32,
  59, 10, 58, 32, 109, 105, 110, 32, 40, 32, 110, 49, 32, 110, 50, 32, 45, 45, 32, 110, 51, 32, 41, 32, 32, 32, 50,
  100, 117, 112, 32, 60, 32, 105, 102, 32, 100, 114, 111, 112, 32, 101, 108, 115, 101, 32, 110, 105, 112, 32, 116,
  104, 101, 110, 32, 59, 10, 58, 32, 99, 104, 97, 114, 115, 32, 40, 32, 110, 32, 45, 45, 32, 110, 49, 32, 41, 32, 32,
  59, 32, 105, 109, 109, 101, 100, 105, 97, 116, 101, 10, 58, 32, 99, 44, 32, 40, 32, 99, 104, 97, 114, 32, 45, 45,
  32, 41, 32, 32, 32, 104, 101, 114, 101, 32, 49, 32, 99, 104, 97, 114, 115, 32, 97, 108, 108, 111, 116, 32, 99, 33,
  32, 59, 10, 58, 32, 102, 105, 108, 108, 32, 40, 32, 99, 45, 97, 100, 100, 114, 32, 117, 32, 99, 104, 97, 114, 32,
  45, 45, 32, 41, 10, 32, 32, 32, 32, 115, 119, 97, 112, 32, 100, 117, 112, 32, 48, 62, 32, 105, 102, 32, 62, 114,
  32, 115, 119, 97, 112, 32, 114, 62, 32, 32, 48, 32, 100, 111, 32, 50, 100, 117, 112, 32, 105, 32, 43, 32, 99, 33,
  32, 108, 111, 111, 112, 10, 32, 32, 32, 32, 101, 108, 115, 101, 32, 100, 114, 111, 112, 32, 116, 104, 101, 110, 32,
  50, 100, 114, 111, 112, 32, 59, 10, 58, 32, 99, 111, 117, 110, 116, 32, 40, 32, 97, 32, 45, 45, 32, 97, 43, 49, 32,
  110, 32, 41, 32, 32, 100, 117, 112, 32, 99, 64, 32, 32, 115, 119, 97, 112, 32, 49, 32, 43, 32, 32, 115, 119, 97,
  112, 32, 59, 10, 58, 32, 47, 115, 116, 114, 105, 110, 103, 32, 40, 32, 99, 45, 97, 100, 100, 114, 49, 32, 117, 49,
  32, 110, 32, 45, 45, 32, 99, 45, 97, 100, 100, 114, 50, 32, 117, 50, 32, 41, 32, 40, 32, 49, 55, 46, 54, 46, 49,
  46, 48, 50, 52, 53, 32, 41, 32, 32, 100, 117, 112, 32, 62, 114, 32, 45, 32, 115, 119, 97, 112, 32, 114, 62, 32, 99,
  104, 97, 114, 115, 32, 43, 32, 115, 119, 97, 112, 32, 59, 10, 58, 32, 97, 112, 112, 101, 110, 100, 32, 40, 32, 99,
  45, 97, 100, 100, 114, 49, 32, 117, 32, 99, 45, 97, 100, 100, 114, 50, 32, 45, 32, 41, 32, 32, 50, 62, 114, 32, 32,
  50, 114, 64, 32, 99, 111, 117, 110, 116, 32, 43, 32, 115, 119, 97, 112, 32, 109, 111, 118, 101, 32, 32, 50, 114,
  62, 32, 100, 117, 112, 32, 62, 114, 32, 99, 64, 32, 43, 32, 114, 62, 32, 99, 33, 32, 59, 10, 58, 32, 118, 97, 114,
  105, 97, 98, 108, 101, 32, 32, 32, 99, 114, 101, 97, 116, 101, 32, 32, 48, 32, 44, 32, 59, 10, 58, 32, 111, 110,
  32, 40, 32, 97, 32, 45, 45, 32, 41, 32, 32, 32, 116, 114, 117, 101, 32, 115, 119, 97, 112, 32, 33, 32, 59, 10, 58,
  32, 111, 102, 102, 32, 40, 32, 97, 32, 45, 45, 32, 41, 32, 32, 32, 102, 97, 108, 115, 101, 32, 115, 119, 97, 112,
  32, 33, 32, 59, 10, 58, 32, 108, 105, 116, 101, 114, 97, 108, 32, 40, 32, 110, 32, 45, 45, 32, 41, 32, 32, 32, 112,
  111, 115, 116, 112, 111, 110, 101, 32, 108, 105, 116, 32, 32, 44, 32, 59, 32, 105, 109, 109, 101, 100, 105, 97,
  116, 101, 32, 99, 111, 109, 112, 105, 108, 101, 45, 111, 110, 108, 121, 10, 58, 32, 50, 108, 105, 116, 101, 114,
  97, 108, 32, 40, 32, 110, 49, 32, 110, 50, 32, 45, 45, 32, 41, 10, 32, 32, 32, 32, 115, 119, 97, 112, 32, 112, 111,
  115, 116, 112, 111, 110, 101, 32, 108, 105, 116, 32, 32, 44, 32, 32, 112, 111, 115, 116, 112, 111, 110, 101, 32,
  108, 105, 116, 32, 32, 44, 32, 59, 32, 105, 109, 109, 101, 100, 105, 97, 116, 101, 32, 99, 111, 109, 112, 105, 108,
  101, 45, 111, 110, 108, 121, 10, 58, 32, 102, 108, 105, 116, 101, 114, 97, 108, 32, 40, 32, 70, 58, 32, 114, 32,
  45, 45, 32, 41, 32, 32, 32, 112, 111, 115, 116, 112, 111, 110, 101, 32, 102, 108, 105, 116, 32, 32, 102, 44, 32,
  59, 32, 105, 109, 109, 101, 100, 105, 97, 116, 101, 32, 99, 111, 109, 112, 105, 108, 101, 45, 111, 110, 108, 121,
  10, 58, 32, 50, 99, 111, 110, 115, 116, 97, 110, 116, 32, 32, 32, 99, 114, 101, 97, 116, 101, 32, 50, 44, 32, 100,
  111, 101, 115, 62, 32, 32, 50, 64, 32, 59, 10, 58, 32, 50, 118, 97, 114, 105, 97, 98, 108, 101, 32, 32, 32, 99,
  114, 101, 97, 116, 101, 32, 32, 48, 32, 44, 32, 48, 32, 44, 32, 59, 10, 58, 32, 102, 118, 97, 114, 105, 97, 98,
  108, 101, 32, 32, 32, 99, 114, 101, 97, 116, 101, 32, 102, 97, 108, 105, 103, 110, 32, 48, 101, 32, 102, 44, 32,
  100, 111, 101, 115, 62, 32, 102, 97, 108, 105, 103, 110, 101, 100, 32, 59, 10, 58, 32, 43, 102, 105, 101, 108, 100,
  32, 40, 32, 110, 49, 32, 110, 50, 32, 45, 45, 32, 110, 51, 32, 41, 32, 32, 32, 99, 114, 101, 97, 116, 101, 32, 111,
  118, 101, 114, 32, 44, 32, 43, 32, 100, 111, 101, 115, 62, 32, 64, 32, 43, 32, 59, 10, 58, 32, 100, 101, 102, 101,
  114, 32, 32, 32, 99, 114, 101, 97, 116, 101, 32, 91, 39, 93, 32, 110, 111, 111, 112, 32, 44, 32, 32, 100, 111, 101,
  115, 62, 32, 64, 32, 101, 120, 101, 99, 117, 116, 101, 32, 59, 10, 58, 32, 100, 101, 102, 101, 114, 64, 32, 40, 32,
  120, 116, 49, 32, 45, 45, 32, 120, 116, 50, 32, 41, 32, 32, 32, 62, 98, 111, 100, 121, 32, 64, 32, 59, 10, 58, 32,
  100, 101, 102, 101, 114, 33, 32, 40, 32, 120, 116, 50, 32, 120, 116, 49, 32, 45, 45, 32, 41, 32, 32, 32, 62, 98,
  111, 100, 121, 32, 33, 32, 59, 10, 10, 118, 97, 114, 105, 97, 98, 108, 101, 32, 35, 116, 105, 98, 32, 32, 48, 32,
  35, 116, 105, 98, 32, 33, 10, 118, 97, 114, 105, 97, 98, 108, 101, 32, 116, 105, 98, 32, 50, 53, 54, 32, 97, 108,
  108, 111, 116, 10, 58, 32, 115, 111, 117, 114, 99, 101, 32, 40, 32, 45, 45, 32, 99, 45, 97, 100, 100, 114, 32, 117,
  32, 41, 32, 32, 32, 116, 105, 98, 32, 35, 116, 105, 98, 32, 64, 32, 59, 10, 118, 97, 114, 105, 97, 98, 108, 101,
  32, 62, 105, 110, 32, 32, 48, 32, 62, 105, 110, 32, 33, 10, 58, 32, 112, 97, 100, 32, 40, 32, 45, 45, 32, 97, 100,
  100, 114, 32, 41, 32, 32, 32, 104, 101, 114, 101, 32, 53, 49, 50, 32, 43, 32, 97, 108, 105, 103, 110, 101, 100, 32,
  59, 10, 10, 92, 32, 68, 117, 109, 112, 10, 58, 32, 98, 111, 117, 110, 100, 115, 32, 40, 32, 97, 32, 110, 32, 45,
  45, 32, 97, 43, 110, 32, 97, 32, 41, 32, 32, 32, 111, 118, 101, 114, 32, 43, 32, 115, 119, 97, 112, 32, 59, 10, 58,
  32, 62, 99, 104, 97, 114, 32, 40, 32, 99, 32, 45, 45, 32, 99, 32, 41, 10, 32, 32, 36, 55, 102, 32, 97, 110, 100,
  32, 100, 117, 112, 32, 98, 108, 32, 49, 50, 55, 32, 119, 105, 116, 104, 105, 110, 32, 105, 110, 118, 101, 114, 116,
  32, 105, 102, 32, 100, 114, 111, 112, 32, 91, 99, 104, 97, 114, 93, 32, 95, 32, 116, 104, 101, 110, 32, 59, 10, 58,
  32, 95, 116, 121, 112, 101, 32, 40, 32, 97, 32, 117, 32, 45, 45, 32, 41, 10, 32, 32, 99, 104, 97, 114, 115, 32, 98,
  111, 117, 110, 100, 115, 32, 98, 101, 103, 105, 110, 32, 50, 100, 117, 112, 32, 120, 111, 114, 32, 119, 104, 105,
  108, 101, 32, 99, 111, 117, 110, 116, 32, 62, 99, 104, 97, 114, 32, 101, 109, 105, 116, 32, 114, 101, 112, 101, 97,
  116, 32, 50, 100, 114, 111, 112, 32, 59, 10, 58, 32, 95, 100, 117, 109, 112, 32, 40, 32, 97, 32, 117, 32, 45, 45,
  32, 41, 10, 32, 32, 32, 32, 99, 104, 97, 114, 115, 32, 98, 111, 117, 110, 100, 115, 32, 98, 101, 103, 105, 110, 32,
  50, 100, 117, 112, 32, 120, 111, 114, 32, 119, 104, 105, 108, 101, 32, 99, 111, 117, 110, 116, 32, 51, 32, 104, 46,
  114, 32, 114, 101, 112, 101, 97, 116, 32, 50, 100, 114, 111, 112, 32, 59, 10, 58, 32, 100, 117, 109, 112, 32, 40,
  32, 97, 32, 117, 32, 45, 45, 32, 41, 32, 40, 32, 49, 53, 46, 54, 46, 49, 46, 49, 50, 56, 48, 32, 41, 10, 32, 32,
  32, 32, 99, 104, 97, 114, 115, 32, 98, 111, 117, 110, 100, 115, 10, 32, 32, 32, 32, 98, 101, 103, 105, 110, 32, 32,
  50, 100, 117, 112, 32, 115, 119, 97, 112, 32, 60, 32, 32, 119, 104, 105, 108, 101, 10, 32, 32, 32, 32, 32, 32, 100,
  117, 112, 32, 52, 32, 104, 46, 114, 32, 32, 91, 99, 104, 97, 114, 93, 32, 58, 32, 101, 109, 105, 116, 32, 32, 40,
  32, 97, 100, 100, 114, 101, 115, 115, 32, 41, 10, 32, 32, 32, 32, 32, 32, 115, 112, 97, 99, 101, 32, 32, 56, 32,
  50, 100, 117, 112, 32, 95, 100, 117, 109, 112, 10, 32, 32, 32, 32, 32, 32, 115, 112, 97, 99, 101, 32, 115, 112, 97,
  99, 101, 32, 32, 50, 100, 117, 112, 32, 95, 116, 121, 112, 101, 10, 32, 32, 32, 32, 32, 32, 99, 104, 97, 114, 115,
  32, 43, 32, 32, 99, 114, 10, 32, 32, 32, 32, 114, 101, 112, 101, 97, 116, 32, 32, 50, 100, 114, 111, 112, 32, 59,
  10, 10, 92, 32, 87, 79, 82, 68, 10, 58, 32, 119, 111, 114, 100, 32, 40, 32, 99, 104, 97, 114, 32, 45, 45, 32, 99,
  45, 97, 100, 100, 114, 32, 41, 32, 32, 32, 100, 117, 112, 32, 95, 115, 107, 105, 112, 32, 32, 112, 97, 114, 115,
  101, 32, 32, 104, 101, 114, 101, 32, 33, 116, 111, 107, 101, 110, 32, 32, 104, 101, 114, 101, 32, 59, 10, 10, 92,
  32, 69, 120, 101, 99, 117, 116, 105, 111, 110, 32, 116, 105, 109, 101, 10, 58, 32, 120, 116, 105, 109, 101, 32, 40,
  32, 116, 48, 32, 120, 116, 32, 45, 45, 32, 41, 32, 32, 32, 50, 62, 114, 32, 114, 64, 32, 101, 120, 101, 99, 117,
  116, 101, 32, 50, 114, 62, 32, 40, 120, 116, 105, 109, 101, 41, 32, 59, 10, 10, 92, 32, 77, 117, 108, 116, 105,
  116, 97, 115, 107, 101, 114, 10, 48, 32, 99, 111, 110, 115, 116, 97, 110, 116, 32, 111, 112, 101, 114, 97, 116,
  111, 114, 10, 58, 32, 110, 111, 100, 32, 32, 32, 98, 101, 103, 105, 110, 32, 112, 97, 117, 115, 101, 32, 97, 103,
  97, 105, 110, 32, 59, 10, 58, 32, 104, 97, 108, 116, 32, 40, 32, 110, 32, 45, 45, 32, 41, 32, 32, 32, 97, 99, 116,
  105, 118, 97, 116, 101, 32, 110, 111, 100, 32, 59, 10, 58, 32, 115, 116, 111, 112, 32, 32, 32, 109, 101, 32, 115,
  117, 115, 112, 101, 110, 100, 32, 112, 97, 117, 115, 101, 32, 59, 10, 92, 32, 65, 113, 117, 105, 114, 101, 32, 102,
  97, 99, 105, 108, 105, 116, 121, 32, 96, 97, 96, 46, 10, 58, 32, 103, 101, 116, 32, 40, 32, 97, 32, 45, 45, 32, 41,
  32, 32, 32, 98, 101, 103, 105, 110, 32, 32, 100, 117, 112, 32, 64, 32, 32, 119, 104, 105, 108, 101, 32, 112, 97,
  117, 115, 101, 32, 114, 101, 112, 101, 97, 116, 32, 109, 101, 32, 115, 119, 97, 112, 32, 33, 32, 59, 10, 92, 32,
  82, 101, 108, 101, 97, 115, 101, 32, 102, 97, 99, 105, 108, 105, 116, 121, 32, 96, 97, 96, 46, 10, 58, 32, 114,
  101, 108, 101, 97, 115, 101, 32, 40, 32, 97, 32, 45, 45, 32, 41, 32, 32, 32, 100, 117, 112, 32, 64, 32, 109, 101,
  32, 61, 32, 105, 102, 32, 48, 32, 115, 119, 97, 112, 32, 33, 32, 101, 108, 115, 101, 32, 100, 114, 111, 112, 32,
  116, 104, 101, 110, 32, 59, 10, 92, 32, 87, 97, 105, 116, 32, 96, 110, 96, 32, 109, 105, 108, 108, 105, 45, 115,
  101, 99, 111, 110, 100, 115, 46, 10, 58, 32, 109, 115, 32, 40, 32, 110, 32, 45, 45, 32, 41, 32, 32, 32, 109, 116,
  105, 109, 101, 32, 32, 98, 101, 103, 105, 110, 32, 109, 116, 105, 109, 101, 32, 111, 118, 101, 114, 32, 45, 32, 32,
  50, 32, 112, 105, 99, 107, 32, 60, 32, 32, 119, 104, 105, 108, 101, 32, 112, 97, 117, 115, 101, 32, 114, 101, 112,
  101, 97, 116, 32, 32, 50, 100, 114, 111, 112, 32, 59, 10, 10, 92, 32, 70, 105, 108, 101, 32, 97, 99, 99, 101, 115,
  115, 10, 48, 32, 99, 111, 110, 115, 116, 97, 110, 116, 32, 114, 47, 111, 10, 49, 32, 99, 111, 110, 115, 116, 97,
  110, 116, 32, 119, 47, 111, 10, 50, 32, 99, 111, 110, 115, 116, 97, 110, 116, 32, 114, 47, 119, 10, 58, 32, 98,
  105, 110, 32, 40, 32, 45, 45, 32, 41, 32, 32, 32, 59, 10, 10, 92, 32, 73, 110, 112, 117, 116, 32, 115, 111, 117,
  114, 99, 101, 10, 58, 32, 95, 115, 97, 118, 101, 45, 105, 110, 112, 117, 116, 32, 40, 32, 45, 45, 32, 115, 111,
  117, 114, 99, 101, 45, 105, 100, 32, 115, 111, 117, 114, 99, 101, 45, 105, 100, 120, 32, 50, 32, 41, 32, 32, 32,
  115, 111, 117, 114, 99, 101, 45, 105, 100, 32, 32, 115, 111, 117, 114, 99, 101, 45, 105, 100, 120, 32, 50, 32, 59,
  10, 58, 32, 95, 114, 101, 115, 116, 111, 114, 101, 45, 105, 110, 112, 117, 116, 32, 40, 32, 115, 111, 117, 114, 99,
  101, 45, 105, 100, 32, 115, 111, 117, 114, 99, 101, 45, 105, 100, 120, 32, 50, 32, 45, 45, 32, 41, 10, 32, 32, 32,
  32, 50, 32, 61, 32, 105, 102, 32, 115, 111, 117, 114, 99, 101, 45, 105, 100, 120, 33, 32, 115, 111, 117, 114, 99,
  101, 45, 105, 100, 33, 32, 101, 108, 115, 101, 32, 97, 98, 111, 114, 116, 32, 116, 104, 101, 110, 32, 59, 10, 100,
  101, 102, 101, 114, 32, 115, 97, 118, 101, 45, 105, 110, 112, 117, 116, 32, 32, 32, 39, 32, 95, 115, 97, 118, 101,
  45, 105, 110, 112, 117, 116, 32, 32, 39, 32, 115, 97, 118, 101, 45, 105, 110, 112, 117, 116, 32, 32, 100, 101, 102,
  101, 114, 33, 10, 100, 101, 102, 101, 114, 32, 114, 101, 115, 116, 111, 114, 101, 45, 105, 110, 112, 117, 116, 32,
  32, 32, 39, 32, 95, 114, 101, 115, 116, 111, 114, 101, 45, 105, 110, 112, 117, 116, 32, 32, 39, 32, 114, 101, 115,
  116, 111, 114, 101, 45, 105, 110, 112, 117, 116, 32, 32, 100, 101, 102, 101, 114, 33, 10, 10, 92, 32, 83, 116, 97,
  99, 107, 32, 116, 111, 32, 115, 97, 118, 101, 32, 38, 32, 114, 101, 115, 116, 111, 114, 101, 32, 115, 111, 117,
  114, 99, 101, 10, 92, 32, 99, 111, 110, 116, 101, 110, 116, 58, 32, 124, 32, 99, 97, 112, 97, 99, 105, 116, 121,
  32, 124, 32, 99, 111, 117, 110, 116, 61, 78, 32, 124, 32, 115, 111, 117, 114, 99, 101, 45, 105, 100, 120, 49, 32,
  124, 32, 115, 111, 117, 114, 99, 101, 45, 105, 100, 49, 32, 124, 32, 46, 46, 46, 32, 124, 32, 115, 111, 117, 114,
  99, 101, 95, 105, 100, 120, 78, 32, 124, 32, 115, 111, 117, 114, 99, 101, 45, 105, 100, 78, 32, 124, 10, 92, 32,
  78, 79, 84, 69, 58, 32, 109, 117, 108, 116, 105, 116, 97, 115, 107, 105, 110, 103, 32, 105, 115, 32, 110, 111, 116,
  32, 99, 111, 110, 115, 105, 100, 101, 114, 101, 100, 32, 104, 101, 114, 101, 46, 10, 99, 114, 101, 97, 116, 101,
  32, 115, 114, 99, 45, 115, 116, 97, 99, 107, 32, 49, 54, 32, 44, 32, 48, 32, 44, 32, 49, 54, 32, 50, 42, 32, 99,
  101, 108, 108, 115, 32, 97, 108, 108, 111, 116, 10, 58, 32, 115, 97, 118, 101, 45, 115, 111, 117, 114, 99, 101, 10,
  32, 32, 32, 32, 115, 111, 117, 114, 99, 101, 45, 105, 100, 32, 115, 111, 117, 114, 99, 101, 45, 105, 100, 120, 10,
  32, 32, 32, 32, 115, 114, 99, 45, 115, 116, 97, 99, 107, 32, 50, 64, 32, 111, 118, 101, 114, 32, 62, 32, 105, 102,
  10, 32, 32, 32, 32, 32, 32, 40, 32, 115, 114, 99, 45, 105, 100, 32, 115, 114, 99, 45, 105, 100, 120, 32, 99, 111,
  117, 110, 116, 32, 41, 32, 49, 43, 32, 100, 117, 112, 32, 115, 114, 99, 45, 115, 116, 97, 99, 107, 32, 99, 101,
  108, 108, 43, 32, 33, 10, 32, 32, 32, 32, 32, 32, 40, 32, 115, 114, 99, 45, 105, 100, 32, 115, 114, 99, 45, 105,
  100, 120, 32, 99, 111, 117, 110, 116, 43, 49, 32, 41, 32, 50, 42, 32, 99, 101, 108, 108, 115, 32, 115, 114, 99, 45,
  115, 116, 97, 99, 107, 32, 43, 32, 32, 50, 33, 10, 32, 32, 32, 32, 101, 108, 115, 101, 32, 97, 98, 111, 114, 116,
  32, 116, 104, 101, 110, 32, 59, 10, 58, 32, 114, 101, 115, 116, 111, 114, 101, 45, 115, 111, 117, 114, 99, 101, 10,
  32, 32, 32, 32, 115, 114, 99, 45, 115, 116, 97, 99, 107, 32, 50, 64, 32, 100, 114, 111, 112, 32, 32, 100, 117, 112,
  32, 48, 32, 62, 32, 105, 102, 10, 32, 32, 32, 32, 32, 32, 40, 32, 99, 111, 117, 110, 116, 32, 41, 32, 100, 117,
  112, 32, 49, 45, 32, 115, 114, 99, 45, 115, 116, 97, 99, 107, 32, 99, 101, 108, 108, 43, 32, 33, 10, 32, 32, 32,
  32, 32, 32, 40, 32, 99, 111, 117, 110, 116, 32, 41, 32, 50, 42, 32, 99, 101, 108, 108, 115, 32, 115, 114, 99, 45,
  115, 116, 97, 99, 107, 32, 43, 32, 50, 64, 10, 32, 32, 32, 32, 32, 32, 115, 111, 117, 114, 99, 101, 45, 105, 100,
  120, 33, 32, 32, 115, 111, 117, 114, 99, 101, 45, 105, 100, 33, 10, 32, 32, 32, 32, 101, 108, 115, 101, 32, 97, 98,
  111, 114, 116, 32, 116, 104, 101, 110, 32, 59, 10, 58, 32, 101, 118, 97, 108, 117, 97, 116, 101, 45, 105, 110, 112,
  117, 116, 10, 32, 32, 32, 32, 98, 101, 103, 105, 110, 32, 112, 97, 114, 115, 101, 45, 119, 111, 114, 100, 10, 32,
  32, 32, 32, 32, 32, 116, 111, 107, 101, 110, 45, 101, 109, 112, 116, 121, 63, 32, 110, 111, 116, 10, 32, 32, 32,
  32, 119, 104, 105, 108, 101, 10, 32, 32, 32, 32, 32, 32, 99, 111, 109, 112, 105, 108, 105, 110, 103, 63, 32, 105,
  102, 32, 99, 111, 109, 112, 105, 108, 101, 45, 116, 111, 107, 101, 110, 10, 32, 32, 32, 32, 32, 32, 63, 115, 116,
  97, 99, 107, 115, 32, 101, 108, 115, 101, 32, 105, 110, 116, 101, 114, 112, 114, 101, 116, 45, 116, 111, 107, 101,
  110, 32, 63, 115, 116, 97, 99, 107, 115, 32, 116, 104, 101, 110, 10, 32, 32, 32, 32, 114, 101, 112, 101, 97, 116,
  32, 59, 10, 92, 32, 77, 117, 108, 116, 105, 116, 97, 115, 107, 105, 110, 103, 32, 105, 115, 32, 110, 111, 116, 32,
  99, 111, 110, 115, 105, 100, 101, 114, 101, 100, 32, 104, 101, 114, 101, 46, 10, 118, 97, 114, 105, 97, 98, 108,
  101, 32, 108, 111, 97, 100, 45, 108, 105, 110, 101, 35, 10, 58, 32, 108, 111, 97, 100, 45, 115, 111, 117, 114, 99,
  101, 45, 102, 105, 108, 101, 32, 40, 32, 45, 45, 32, 41, 10, 32, 32, 32, 32, 98, 101, 103, 105, 110, 10, 32, 32,
  32, 32, 32, 32, 115, 111, 117, 114, 99, 101, 45, 105, 100, 32, 108, 111, 97, 100, 45, 108, 105, 110, 101, 10, 32,
  32, 32, 32, 119, 104, 105, 108, 101, 10, 32, 32, 32, 32, 32, 32, 100, 114, 111, 112, 10, 32, 32, 32, 32, 32, 32,
  48, 32, 115, 111, 117, 114, 99, 101, 45, 105, 100, 120, 33, 10, 32, 32, 32, 32, 32, 32, 101, 118, 97, 108, 117, 97,
  116, 101, 45, 105, 110, 112, 117, 116, 32, 32, 102, 108, 117, 115, 104, 45, 111, 117, 116, 112, 117, 116, 10, 32,
  32, 32, 32, 32, 32, 49, 32, 108, 111, 97, 100, 45, 108, 105, 110, 101, 35, 32, 43, 33, 10, 32, 32, 32, 32, 114,
  101, 112, 101, 97, 116, 32, 32, 100, 114, 111, 112, 32, 59, 10, 58, 32, 105, 110, 99, 108, 117, 100, 101, 100, 32,
  40, 32, 99, 45, 97, 100, 100, 114, 32, 117, 32, 45, 45, 32, 41, 10, 32, 32, 32, 32, 50, 100, 117, 112, 32, 32, 114,
  47, 111, 32, 111, 112, 101, 110, 45, 102, 105, 108, 101, 32, 48, 61, 32, 105, 102, 10, 32, 32, 32, 32, 32, 32, 32,
  32, 115, 97, 118, 101, 45, 115, 111, 117, 114, 99, 101, 10, 32, 32, 32, 32, 32, 32, 32, 32, 40, 32, 99, 45, 97,
  100, 100, 114, 32, 117, 32, 102, 105, 108, 101, 45, 105, 100, 32, 41, 32, 111, 112, 101, 110, 45, 115, 111, 117,
  114, 99, 101, 32, 115, 111, 117, 114, 99, 101, 45, 105, 100, 33, 10, 32, 32, 32, 32, 32, 32, 32, 32, 112, 111, 115,
  116, 112, 111, 110, 101, 32, 91, 10, 32, 32, 32, 32, 32, 32, 32, 32, 49, 32, 108, 111, 97, 100, 45, 108, 105, 110,
  101, 35, 32, 33, 10, 32, 32, 32, 32, 32, 32, 32, 32, 108, 111, 97, 100, 45, 115, 111, 117, 114, 99, 101, 45, 102,
  105, 108, 101, 10, 32, 32, 32, 32, 32, 32, 32, 32, 115, 111, 117, 114, 99, 101, 45, 105, 100, 32, 32, 114, 101,
  115, 116, 111, 114, 101, 45, 115, 111, 117, 114, 99, 101, 32, 32, 99, 108, 111, 115, 101, 45, 115, 111, 117, 114,
  99, 101, 10, 32, 32, 32, 32, 101, 108, 115, 101, 10, 32, 32, 32, 32, 32, 32, 32, 32, 97, 98, 111, 114, 116, 10, 32,
  32, 32, 32, 116, 104, 101, 110, 10, 59, 10, 58, 32, 105, 110, 99, 108, 117, 100, 101, 32, 40, 32, 34, 112, 97, 116,
  104, 34, 32, 45, 45, 32, 41, 32, 32, 32, 51, 50, 32, 119, 111, 114, 100, 32, 99, 111, 117, 110, 116, 32, 105, 110,
  99, 108, 117, 100, 101, 100, 32, 59, 10, 58, 32, 92, 92, 32, 40, 32, 45, 45, 32, 41, 32, 32, 32, 115, 111, 117,
  114, 99, 101, 45, 105, 100, 32, 32, 32, 98, 101, 103, 105, 110, 32, 32, 100, 117, 112, 32, 108, 111, 97, 100, 45,
  108, 105, 110, 101, 32, 32, 119, 104, 105, 108, 101, 32, 32, 100, 114, 111, 112, 32, 32, 114, 101, 112, 101, 97,
  116, 32, 32, 50, 100, 114, 111, 112, 32, 59, 10, 10, 109, 97, 114, 107, 101, 114, 32, 45, 119, 111, 114, 107, 10]

set_option maxRecDepth 1000000 in
theorem core_text : coreFth.toList = spelt coreCodes := by
  have : coreFth = String.ofList (coreCodes.map Char.ofNat) := by
    unfold coreFth
    exact rfl
  rw [this, String.toList_ofList]
  rfl

def asciiB : List Nat → Bool
  | [] => true
  | c :: l => Nat.blt c 128 && asciiB l

theorem asciiB_spec : ∀ {l : List Nat}, asciiB l = true → Ascii l
  | [], _ => nofun
  | c :: l, h => by
    simp only [asciiB, Bool.and_eq_true, Nat.blt_eq] at h
    intro x hx
    rcases List.mem_cons.1 hx with rfl | hx
    · exact h.1
    · exact asciiB_spec h.2 x hx

set_option maxRecDepth 1000000 in
theorem core_ascii : Ascii coreCodes := asciiB_spec (by decide +kernel)

theorem byteLen_le : ∀ l : List Char, byteLen l ≤ 4 * l.length
  | [] => Nat.le_refl _
  | c :: l => by
    have h1 := byteLen_le l
    have h2 := Char.utf8Size_le_four c
    simp only [byteLen, List.length_cons]
    omega

set_option maxRecDepth 1000000 in
theorem core_length : byteLen (spelt coreCodes) < 2 ^ 32 := by
  have h : coreCodes.length = 4994 := by decide +kernel
  have := byteLen_le (spelt coreCodes)
  rw [show (spelt coreCodes).length = coreCodes.length from List.length_map .., h] at this
  omega

/-- What the compiler needs is in the tables. -/
def groundB : Bool :=
  let rows := bootOutline.rows
  (roles bootRefs 13).all (fun r => match rowAt r.1 rows with
    | some x => decide (x.action = .core r.2)
    | none => false) &&
  plainRows rows [bootRefs.exit, bootRefs.sQuote, bootRefs.postponeRt, bootRefs.doesRt] &&
  (match rowAt 13 rows with
    | some x => decide (x.comp = .leave)
    | none => false) && decide (bootOutline.count = outlineBase)

set_option maxRecDepth 1000000 in
theorem ground_ok : groundB = true := by decide +kernel

/-- What does not change while core.fth is loaded. -/
def bootGround (b cap : Nat) (s : VM) : Ground := ⟨b, cap, bootRefs, 13, s.wl.words⟩

section
variable {b cap : Nat} {l : Outline} {s t : VM}

theorem rowAt_mem {i : Nat} {r : Row} : ∀ {rs : List Row}, rowAt i rs = some r → r ∈ rs ∧ r.ix = i
  | [], h => nomatch h
  | a :: as, h => by
    simp only [rowAt] at h
    split at h
    · rename_i hb
      cases h
      exact ⟨List.mem_cons_self, Nat.eq_of_beq_eq_true hb⟩
    · obtain ⟨a1, a2⟩ := rowAt_mem h
      exact ⟨List.mem_cons_of_mem _ a1, a2⟩

theorem Built.row (h : Built b cap l s) {i : Nat} {r : Row} (hr : rowAt i l.rows = some r) :
    ∃ w, s.wl.words[i]? = some w ∧ r.Is b w := by
  obtain ⟨k1, k2⟩ := rowAt_mem hr
  obtain ⟨w, h1, h2⟩ := h.rows r k1
  exact ⟨w, k2 ▸ h1, h2⟩

theorem Built.plain (h : Built b cap l s) : ∀ {is : List Nat}, plainRows l.rows is = true → ∀ i ∈ is, Plain s.wl i
  | [], _, i, hi => nomatch hi
  | j :: is, hp, i, hi => by
    simp only [plainRows] at hp
    split at hp
    case h_2 => cases hp
    rename_i r hr
    simp only [Bool.and_eq_true, decide_eq_true_eq] at hp
    rcases List.mem_cons.1 hi with rfl | hi
    · obtain ⟨w, w1, w2⟩ := h.row hr
      exact ⟨w, w1, w2.comp.trans hp.1⟩
    · exact h.plain hp.2 i hi

theorem boot_ground (hb : Site b cap) (h : Built b cap bootOutline s) : (bootGround b cap s).Ok := by
  have hg := ground_ok
  simp only [groundB, Bool.and_eq_true, decide_eq_true_eq, List.all_eq_true] at hg
  obtain ⟨⟨⟨g1, g2⟩, g3⟩, g4⟩ := hg
  have hlen : s.wl.words.length = outlineBase := h.count.trans g4
  have hp := h.plain g2
  refine ⟨hb.pos, hb.aligned, hb.small, hb.room, hlen, ⟨?_, ?_, ?_, ?_, ?_⟩, by show (4 : Nat) ≠ 0; decide, ?_, ?_⟩
  · show s.wl.words.length ≤ _
    rw [hlen]; decide
  · intro r hr
    have := g1 r hr
    split at this
    case h_2 => cases this
    rename_i x hx
    obtain ⟨w, w1, w2⟩ := h.row hx
    exact ⟨w, w1, w2.action.trans (of_decide_eq_true this)⟩
  · exact hp bootRefs.exit (by simp)
  · exact hp bootRefs.sQuote (by simp)
  · split at g3
    case h_2 => cases g3
    rename_i x hx
    obtain ⟨w, w1, w2⟩ := h.row hx
    exact ⟨w, w1, w2.comp.trans (of_decide_eq_true g3)⟩
  · exact hp bootRefs.postponeRt (by simp)
  · exact hp bootRefs.doesRt (by simp)

/-- The outline with a text to load. -/
def Outline.withText (l : Outline) (t : List Nat) : Outline := { l with text := t }

/-- The outline when the text is there. -/
def coreStart : Outline := bootOutline.withText coreCodes

theorem withText_rest (l : Outline) (t : List Nat) : (l.withText t).defs = l.defs ∧ (l.withText t).facts = l.facts := ⟨rfl, rfl⟩

theorem addWords_rest (es : List Entry) : ∀ l : Outline, (addWords es l).defs = l.defs ∧ (addWords es l).facts = l.facts ∧
    (addWords es l).stack = l.stack := by
  induction es with
  | nil => exact fun _ => ⟨rfl, rfl, rfl⟩
  | cons e es ih => exact fun l => ih (addOne e l)

theorem boot_rest : bootOutline.defs = [] ∧ bootOutline.facts = [] ∧ bootOutline.stack = [] := by
  have h1 := addWords_rest otherTables outputOutline
  have h2 := addWords_rest outputTable coreOutline2
  have h3 := addWords_rest coreTable2 { coreOutline1 with rows := coreOutline1.rows.map (patchRow 13) }
  have h4 := addWords_rest coreTable1.tail firstOutline
  exact ⟨h1.1.trans (h2.1.trans (h3.1.trans h4.1)), h1.2.1.trans (h2.2.1.trans (h3.2.1.trans h4.2.1)),
    h1.2.2.trans (h2.2.2.trans (h3.2.2.trans h4.2.2))⟩

theorem calm_new {α : Type} (c : α) : Calm (Stack.new c) ∧ (Stack.new c).items = [] := by
  have h : (Stack.new c).items = [] := rfl
  exact ⟨⟨by rw [h]; exact Nat.zero_le _, rfl, rfl⟩, h⟩

/-- A machine that has been built, and has not yet loaded any text. -/
theorem built_stand (hb : Site b cap) {s0 : VM} (h : Built b cap l s) (hr : s.refs = bootRefs)
    (hk : ∀ i, i < outlineBase → s.wl.words[i]? = s0.wl.words[i]?) (r1 : l.defs = []) (r2 : l.facts = []) (r3 : l.stack = []) :
    Stand (bootGround b cap s0) (l.withText []) s ∧ Waits s := by
  have hcur : s.cur = 0 := by rw [h.frame]; rfl
  have ht : s.task = { Task.newTerminal with awake := (s.tasks 0).awake } := by
    rw [VM.task, hcur]; exact h.terminal
  have hst : ∀ {α : Type} (c : α), Calm (Stack.new c) := fun c => (calm_new c).1
  refine ⟨?_, ?_⟩
  · refine ⟨by rw [ht]; rfl, ?_, ?_, h.dict, h.space, h.start, h.cap, h.here, hr, h.base, by rw [ht]; exact hst _, ?_,
      by rw [ht]; exact hst _, by rw [ht]; exact hst _, by rw [ht]; exact hst _, ?_, ?_, h.count, hk, h.rows, h.order, h.names, ?_, ?_, h.low,
      Nat.le_of_eq h.top, h.room, fun i w hw => ?_, (fun _ hx => nomatch hx), ⟨[], ?_, ?_, ?_⟩,
      ⟨hcur, by rw [h.frame]; rfl, by rw [ht]; rfl, by rw [h.frame]; rfl, by rw [h.frame]; rfl, [], by rw [ht]; rfl, Nat.two_pow_pos 32⟩⟩
    · rw [h.frame]; rfl
    · rw [h.frame]; rfl
    · rw [ht]
      show _ = l.stack.map _
      rw [r3]
      exact (calm_new _).2
    · rw [ht]; exact (calm_new _).2
    · rw [h.frame]; rfl
    · intro d hd
      replace hd : d ∈ l.defs := hd
      rw [r1] at hd; cases hd
    · intro d hd
      replace hd : d ∈ l.facts := hd
      rw [r2] at hd; cases hd
    · obtain ⟨a1, a2⟩ := h.bodies i w hw
      rw [reserve, if_neg a2]
      exact a1
    · rw [ht]; rfl
    · rw [ht]; rfl
    · exact Nat.two_pow_pos 63
  · have hip : pc s = 0 := by simp only [pc]; rw [ht]; rfl
    refine ⟨⟨.inl ?_, ?_⟩, ?_⟩
    · rw [hip, h.start]; exact hb.pos
    · rw [hip]; decide
    · simp only [ret]
      rw [ht]
      exact congrArg List.length (calm_new cellCanary).2

/-- The machine that is about to load core.fth. -/
theorem boot_stand (hb : Site b cap) {s0 : VM} (h : Built b cap l s) (hr : s.refs = bootRefs)
    (hk : ∀ i, i < outlineBase → s.wl.words[i]? = s0.wl.words[i]?) (r1 : l.defs = []) (r2 : l.facts = []) (r3 : l.stack = [])
    (cfg : Cfg) (depth : Nat) :
    ∃ t, (∀ fuel, loadStr cfg depth fuel coreFth.toList s = evaluateInput cfg depth fuel t) ∧
      Stand (bootGround b cap s0) (l.withText coreCodes) t ∧ Waits t := by
  obtain ⟨a1, a2⟩ := built_stand hb h hr hk r1 r2 r3
  obtain ⟨t, b1, b2, b3, -⟩ := load_stand (cfg := cfg) (depth := depth) a1 a2 core_ascii core_length
  rw [← core_text] at b1
  exact ⟨t, b1, b2, b3⟩

end

end Verif
