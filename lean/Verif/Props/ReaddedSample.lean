import Verif.Props.CutSample
import Verif.Props.Readded
/-! # C75: a file to which the theorems apply, and one where the old node comes back -/
namespace Copc
open Spec VoxelKey

/-- The file that the writer of `AgainSample` leaves, written out. -/
def againBytes : Bytes := [76, 65, 83, 70, 0, 0, 16, 0, 0, 0, 0, 0, 0, 0, 0, 0, 0, 0, 0, 0, 0, 0, 0, 0, 1, 4, 0, 0, 0, 0, 0, 0, 0, 0, 0, 0,
  0, 0, 0, 0, 0, 0, 0, 0, 0, 0, 0, 0, 0, 0, 0, 0, 0, 0, 0, 0, 0, 0, 0, 0, 0, 0, 0, 0, 0, 0, 0, 0, 0, 0, 0, 0, 0, 0,
  0, 0, 0, 0, 0, 0, 0, 0, 0, 0, 0, 0, 0, 0, 0, 0, 0, 0, 0, 0, 119, 1, 243, 5, 0, 0, 5, 0, 0, 0, 134, 31, 0, 5, 0,
  0, 0, 0, 0, 0, 0, 0, 0, 0, 0, 0, 0, 0, 0, 0, 0, 0, 0, 0, 0, 0, 0, 0, 0, 0, 0, 0, 0, 240, 63, 0, 0, 0, 0, 0, 0,
  240, 63, 0, 0, 0, 0, 0, 0, 240, 63, 0, 0, 0, 0, 0, 0, 0, 0, 0, 0, 0, 0, 0, 0, 0, 0, 0, 0, 0, 0, 0, 0, 0, 0, 0, 0,
  0, 0, 0, 0, 32, 64, 0, 0, 0, 0, 0, 0, 0, 0, 0, 0, 0, 0, 0, 0, 32, 64, 0, 0, 0, 0, 0, 0, 0, 0, 0, 0, 0, 0, 0, 0,
  32, 64, 0, 0, 0, 0, 0, 0, 0, 0, 0, 0, 0, 0, 0, 0, 0, 0, 206, 6, 0, 0, 0, 0, 0, 0, 2, 0, 0, 0, 5, 0, 0, 0, 0, 0,
  0, 0, 0, 0, 0, 0, 0, 0, 0, 0, 0, 0, 0, 0, 0, 0, 0, 0, 0, 0, 0, 0, 0, 0, 0, 0, 0, 0, 0, 0, 0, 0, 0, 0, 0, 0, 0, 0,
  0, 0, 0, 0, 0, 0, 0, 0, 0, 0, 0, 0, 0, 0, 0, 0, 0, 0, 0, 0, 0, 0, 0, 0, 0, 0, 0, 0, 0, 0, 0, 0, 0, 0, 0, 0, 0, 0,
  0, 0, 0, 0, 0, 0, 0, 0, 0, 0, 0, 0, 0, 0, 0, 0, 0, 0, 0, 0, 0, 0, 0, 0, 0, 0, 0, 0, 0, 0, 0, 0, 0, 0, 0, 0, 0, 0,
  0, 0, 0, 0, 0, 0, 0, 0, 0, 0, 99, 111, 112, 99, 0, 0, 0, 0, 0, 0, 0, 0, 0, 0, 0, 0, 1, 0, 160, 0, 67, 79, 80, 67,
  32, 105, 110, 102, 111, 32, 86, 76, 82, 0, 0, 0, 0, 0, 0, 0, 0, 0, 0, 0, 0, 0, 0, 0, 0, 0, 0, 0, 0, 0, 0, 0, 0,
  0, 0, 0, 0, 0, 0, 0, 0, 0, 0, 0, 0, 0, 0, 0, 0, 0, 0, 0, 0, 0, 0, 0, 0, 0, 0, 0, 0, 0, 0, 0, 0, 0, 0, 0, 102, 7,
  0, 0, 0, 0, 0, 0, 64, 0, 0, 0, 0, 0, 0, 0, 0, 0, 0, 0, 0, 0, 0, 0, 0, 0, 0, 0, 0, 0, 0, 0, 0, 0, 0, 0, 0, 0, 0,
  0, 0, 0, 0, 0, 0, 0, 0, 0, 0, 0, 0, 0, 0, 0, 0, 0, 0, 0, 0, 0, 0, 0, 0, 0, 0, 0, 0, 0, 0, 0, 0, 0, 0, 0, 0, 0, 0,
  0, 0, 0, 0, 0, 0, 0, 0, 0, 0, 0, 0, 0, 0, 0, 0, 0, 0, 0, 0, 0, 0, 0, 0, 0, 0, 0, 0, 0, 0, 0, 0, 0, 0, 0, 0, 0, 0,
  0, 0, 0, 0, 0, 0, 0, 99, 111, 112, 99, 0, 0, 0, 0, 0, 0, 0, 0, 0, 0, 0, 0, 16, 39, 240, 0, 67, 79, 80, 67, 32,
  101, 120, 116, 101, 110, 116, 115, 0, 0, 0, 0, 0, 0, 0, 0, 0, 0, 0, 0, 0, 0, 0, 0, 0, 0, 0, 0, 0, 0, 0, 0, 0, 0,
  0, 0, 0, 0, 0, 0, 0, 0, 0, 0, 0, 0, 0, 0, 0, 0, 0, 0, 0, 0, 0, 0, 0, 0, 0, 0, 0, 0, 0, 0, 0, 0, 0, 0, 0, 0, 0, 0,
  0, 0, 0, 0, 0, 0, 0, 0, 0, 0, 0, 0, 0, 0, 0, 0, 0, 0, 0, 0, 0, 0, 0, 0, 0, 0, 0, 0, 0, 0, 0, 0, 0, 0, 0, 0, 0, 0,
  0, 0, 0, 0, 0, 0, 0, 0, 0, 0, 0, 0, 0, 0, 0, 0, 0, 0, 0, 0, 0, 0, 0, 0, 0, 0, 0, 0, 0, 0, 0, 0, 0, 0, 0, 0, 0, 0,
  0, 0, 0, 0, 0, 0, 0, 0, 0, 0, 0, 0, 0, 0, 0, 0, 0, 0, 0, 0, 0, 0, 0, 0, 0, 0, 0, 0, 0, 0, 0, 0, 0, 0, 0, 0, 0, 0,
  0, 0, 0, 0, 0, 0, 0, 0, 0, 0, 0, 0, 0, 0, 0, 0, 0, 0, 0, 0, 0, 0, 0, 0, 0, 0, 0, 0, 0, 0, 0, 0, 0, 0, 0, 0, 0, 0,
  0, 0, 0, 0, 0, 0, 0, 0, 0, 0, 0, 0, 0, 0, 0, 0, 0, 0, 0, 0, 0, 0, 0, 0, 0, 0, 0, 0, 0, 0, 0, 0, 0, 0, 0, 0, 0, 0,
  0, 0, 0, 0, 0, 0, 0, 0, 114, 111, 99, 107, 95, 114, 111, 98, 111, 116, 105, 99, 0, 0, 0, 0, 17, 39, 240, 0, 67,
  79, 80, 67, 32, 101, 120, 116, 101, 110, 100, 101, 100, 32, 115, 116, 97, 116, 115, 0, 0, 0, 0, 0, 0, 0, 0, 0, 0,
  0, 0, 0, 0, 0, 0, 0, 0, 0, 0, 0, 0, 0, 0, 0, 0, 0, 240, 63, 0, 0, 0, 0, 0, 0, 0, 0, 0, 0, 0, 0, 0, 0, 240, 63, 0,
  0, 0, 0, 0, 0, 0, 0, 0, 0, 0, 0, 0, 0, 240, 63, 0, 0, 0, 0, 0, 0, 0, 0, 0, 0, 0, 0, 0, 0, 240, 63, 0, 0, 0, 0, 0,
  0, 0, 0, 0, 0, 0, 0, 0, 0, 240, 63, 0, 0, 0, 0, 0, 0, 0, 0, 0, 0, 0, 0, 0, 0, 240, 63, 0, 0, 0, 0, 0, 0, 0, 0, 0,
  0, 0, 0, 0, 0, 240, 63, 0, 0, 0, 0, 0, 0, 0, 0, 0, 0, 0, 0, 0, 0, 240, 63, 0, 0, 0, 0, 0, 0, 0, 0, 0, 0, 0, 0, 0,
  0, 240, 63, 0, 0, 0, 0, 0, 0, 0, 0, 0, 0, 0, 0, 0, 0, 240, 63, 0, 0, 0, 0, 0, 0, 0, 0, 0, 0, 0, 0, 0, 0, 240, 63,
  0, 0, 0, 0, 0, 0, 0, 0, 0, 0, 0, 0, 0, 0, 240, 63, 0, 0, 0, 0, 0, 0, 0, 0, 0, 0, 0, 0, 0, 0, 240, 63, 0, 0, 0, 0,
  0, 0, 0, 0, 0, 0, 0, 0, 0, 0, 240, 63, 0, 0, 0, 0, 0, 0, 0, 0, 0, 0, 0, 0, 0, 0, 240, 63, 0, 0, 76, 65, 83, 70,
  95, 83, 112, 101, 99, 0, 0, 0, 0, 0, 0, 0, 4, 0, 192, 0, 0, 0, 0, 0, 0, 0, 0, 0, 0, 0, 0, 0, 0, 0, 0, 0, 0, 0, 0,
  0, 0, 0, 0, 0, 0, 0, 0, 0, 0, 0, 0, 0, 0, 0, 1, 0, 0, 0, 0, 0, 0, 0, 0, 0, 0, 0, 0, 0, 0, 0, 0, 0, 0, 0, 0, 0, 0,
  0, 0, 0, 0, 0, 0, 0, 0, 0, 0, 0, 0, 0, 0, 0, 0, 0, 0, 0, 0, 0, 0, 0, 0, 0, 0, 0, 0, 0, 0, 0, 0, 0, 0, 0, 0, 0, 0,
  0, 0, 0, 0, 0, 0, 0, 0, 0, 0, 0, 0, 0, 0, 0, 0, 0, 0, 0, 0, 0, 0, 0, 0, 0, 0, 0, 0, 0, 0, 0, 0, 0, 0, 0, 0, 0, 0,
  0, 0, 0, 0, 0, 0, 0, 0, 0, 0, 0, 0, 0, 0, 0, 0, 0, 0, 0, 0, 0, 0, 0, 0, 0, 0, 0, 0, 0, 0, 0, 0, 0, 0, 0, 0, 0, 0,
  0, 0, 0, 0, 0, 0, 0, 0, 0, 0, 0, 0, 0, 0, 0, 0, 0, 0, 0, 0, 0, 0, 0, 0, 0, 0, 0, 0, 0, 0, 0, 0, 0, 0, 0, 0, 0, 0,
  0, 0, 0, 0, 0, 0, 0, 0, 0, 0, 0, 0, 0, 0, 0, 0, 0, 108, 97, 115, 122, 105, 112, 32, 101, 110, 99, 111, 100, 101,
  100, 0, 0, 188, 86, 46, 0, 108, 97, 122, 112, 101, 114, 102, 32, 118, 97, 114, 105, 97, 110, 116, 0, 0, 0, 0, 0,
  0, 0, 0, 0, 0, 0, 0, 0, 0, 0, 0, 0, 1, 1, 1, 1, 1, 1, 1, 1, 1, 1, 1, 1, 255, 255, 255, 255, 1, 1, 1, 1, 1, 1, 1, 1, 1, 1,
  1, 1, 1, 1, 1, 1, 1, 1, 1, 1, 1, 1, 1, 1, 1, 1, 1, 1, 1, 1, 150, 6, 0, 0, 0, 0, 0, 0, 1, 0, 0, 0, 2, 0, 0, 0, 3,
  0, 0, 0, 0, 0, 0, 0, 0, 0, 0, 0, 0, 0, 0, 0, 0, 0, 0, 0, 0, 0, 0, 7, 0, 0, 0, 0, 0, 0, 0, 8, 0, 0, 0, 0, 0, 0, 0,
  0, 0, 0, 0, 0, 0, 0, 0, 0, 0, 0, 0, 0, 0, 0, 5, 0, 0, 0, 1, 0, 0, 0, 6, 0, 0, 0, 0, 0, 0, 0, 0, 0, 0, 0, 0, 0, 0,
  0, 0, 0, 0, 0, 0, 0, 0, 6, 0, 0, 0, 4, 0, 0, 0, 4, 0, 0, 0, 0, 0, 0, 0, 0, 0, 0, 0, 0, 0, 0, 0, 0, 0, 0, 0, 0, 0,
  0, 8, 0, 0, 0, 0, 0, 0, 0, 8, 0, 0, 0, 0, 0, 0, 0, 0, 0, 0, 0, 0, 0, 0, 0, 0, 0, 0, 0, 0, 0, 0, 0, 0, 0, 0, 3, 0,
  0, 0, 2, 0, 0, 0, 0, 0, 0, 0, 62, 0, 0, 0, 0, 0, 0, 0, 1, 0, 0, 0, 0, 0, 0, 0, 31, 0, 0, 0, 0, 0, 0, 0, 2, 0, 0,
  0, 0, 0, 0, 0, 62, 0, 0, 0, 0, 0, 0, 0, 0, 0, 99, 111, 112, 99, 0, 0, 0, 0, 0, 0, 0, 0, 0, 0, 0, 0, 232, 3, 32,
  0, 0, 0, 0, 0, 0, 0, 40, 49, 44, 32, 49, 44, 32, 48, 44, 32, 49, 41, 0, 0, 0, 0, 0, 0, 0, 0, 0, 0, 0, 0, 0, 0, 0,
  0, 0, 0, 0, 0, 1, 0, 0, 0, 1, 0, 0, 0, 0, 0, 0, 0, 1, 0, 0, 0, 88, 6, 0, 0, 0, 0, 0, 0, 62, 0, 0, 0, 2, 0, 0, 0,
  0, 0, 99, 111, 112, 99, 0, 0, 0, 0, 0, 0, 0, 0, 0, 0, 0, 0, 232, 3, 64, 0, 0, 0, 0, 0, 0, 0, 40, 48, 44, 32, 48,
  44, 32, 48, 44, 32, 48, 41, 0, 0, 0, 0, 0, 0, 0, 0, 0, 0, 0, 0, 0, 0, 0, 0, 0, 0, 0, 0, 0, 0, 0, 0, 0, 0, 0, 0,
  0, 0, 0, 0, 0, 0, 0, 0, 251, 5, 0, 0, 0, 0, 0, 0, 62, 0, 0, 0, 2, 0, 0, 0, 1, 0, 0, 0, 1, 0, 0, 0, 0, 0, 0, 0, 1,
  0, 0, 0, 10, 7, 0, 0, 0, 0, 0, 0, 32, 0, 0, 0, 255, 255, 255, 255]

/-- The file that the writer of `StaleSample` leaves, written out. -/
def staleBytes : Bytes := [76, 65, 83, 70, 0, 0, 16, 0, 0, 0, 0, 0, 0, 0, 0, 0, 0, 0, 0, 0, 0, 0, 0, 0, 1, 4, 0, 0, 0, 0, 0, 0, 0, 0, 0, 0,
  0, 0, 0, 0, 0, 0, 0, 0, 0, 0, 0, 0, 0, 0, 0, 0, 0, 0, 0, 0, 0, 0, 0, 0, 0, 0, 0, 0, 0, 0, 0, 0, 0, 0, 0, 0, 0, 0,
  0, 0, 0, 0, 0, 0, 0, 0, 0, 0, 0, 0, 0, 0, 0, 0, 0, 0, 0, 0, 119, 1, 243, 5, 0, 0, 5, 0, 0, 0, 134, 31, 0, 3, 0,
  0, 0, 0, 0, 0, 0, 0, 0, 0, 0, 0, 0, 0, 0, 0, 0, 0, 0, 0, 0, 0, 0, 0, 0, 0, 0, 0, 0, 240, 63, 0, 0, 0, 0, 0, 0,
  240, 63, 0, 0, 0, 0, 0, 0, 240, 63, 0, 0, 0, 0, 0, 0, 0, 0, 0, 0, 0, 0, 0, 0, 0, 0, 0, 0, 0, 0, 0, 0, 0, 0, 0, 0,
  0, 0, 0, 0, 32, 64, 0, 0, 0, 0, 0, 0, 0, 0, 0, 0, 0, 0, 0, 0, 32, 64, 0, 0, 0, 0, 0, 0, 0, 0, 0, 0, 0, 0, 0, 0,
  32, 64, 0, 0, 0, 0, 0, 0, 0, 0, 0, 0, 0, 0, 0, 0, 0, 0, 40, 6, 0, 0, 0, 0, 0, 0, 2, 0, 0, 0, 3, 0, 0, 0, 0, 0, 0,
  0, 0, 0, 0, 0, 0, 0, 0, 0, 0, 0, 0, 0, 0, 0, 0, 0, 0, 0, 0, 0, 0, 0, 0, 0, 0, 0, 0, 0, 0, 0, 0, 0, 0, 0, 0, 0, 0,
  0, 0, 0, 0, 0, 0, 0, 0, 0, 0, 0, 0, 0, 0, 0, 0, 0, 0, 0, 0, 0, 0, 0, 0, 0, 0, 0, 0, 0, 0, 0, 0, 0, 0, 0, 0, 0, 0,
  0, 0, 0, 0, 0, 0, 0, 0, 0, 0, 0, 0, 0, 0, 0, 0, 0, 0, 0, 0, 0, 0, 0, 0, 0, 0, 0, 0, 0, 0, 0, 0, 0, 0, 0, 0, 0, 0,
  0, 0, 0, 0, 0, 0, 0, 0, 0, 99, 111, 112, 99, 0, 0, 0, 0, 0, 0, 0, 0, 0, 0, 0, 0, 1, 0, 160, 0, 67, 79, 80, 67,
  32, 105, 110, 102, 111, 32, 86, 76, 82, 0, 0, 0, 0, 0, 0, 0, 0, 0, 0, 0, 0, 0, 0, 0, 0, 0, 0, 0, 0, 0, 0, 0, 0,
  0, 0, 0, 0, 0, 0, 0, 0, 0, 0, 0, 0, 0, 0, 0, 0, 0, 0, 0, 0, 0, 0, 0, 0, 0, 0, 0, 0, 0, 0, 0, 0, 0, 0, 0, 192, 6,
  0, 0, 0, 0, 0, 0, 64, 0, 0, 0, 0, 0, 0, 0, 0, 0, 0, 0, 0, 0, 0, 0, 0, 0, 0, 0, 0, 0, 0, 0, 0, 0, 0, 0, 0, 0, 0,
  0, 0, 0, 0, 0, 0, 0, 0, 0, 0, 0, 0, 0, 0, 0, 0, 0, 0, 0, 0, 0, 0, 0, 0, 0, 0, 0, 0, 0, 0, 0, 0, 0, 0, 0, 0, 0, 0,
  0, 0, 0, 0, 0, 0, 0, 0, 0, 0, 0, 0, 0, 0, 0, 0, 0, 0, 0, 0, 0, 0, 0, 0, 0, 0, 0, 0, 0, 0, 0, 0, 0, 0, 0, 0, 0, 0,
  0, 0, 0, 0, 0, 0, 0, 99, 111, 112, 99, 0, 0, 0, 0, 0, 0, 0, 0, 0, 0, 0, 0, 16, 39, 240, 0, 67, 79, 80, 67, 32,
  101, 120, 116, 101, 110, 116, 115, 0, 0, 0, 0, 0, 0, 0, 0, 0, 0, 0, 0, 0, 0, 0, 0, 0, 0, 0, 0, 0, 0, 0, 0, 0, 0,
  0, 0, 0, 0, 0, 0, 0, 0, 0, 0, 0, 0, 0, 0, 0, 0, 0, 0, 0, 0, 0, 0, 0, 0, 0, 0, 0, 0, 0, 0, 0, 0, 0, 0, 0, 0, 0, 0,
  0, 0, 0, 0, 0, 0, 0, 0, 0, 0, 0, 0, 0, 0, 0, 0, 0, 0, 0, 0, 0, 0, 0, 0, 0, 0, 0, 0, 0, 0, 0, 0, 0, 0, 0, 0, 0, 0,
  0, 0, 0, 0, 0, 0, 0, 0, 0, 0, 0, 0, 0, 0, 0, 0, 0, 0, 0, 0, 0, 0, 0, 0, 0, 0, 0, 0, 0, 0, 0, 0, 0, 0, 0, 0, 0, 0,
  0, 0, 0, 0, 0, 0, 0, 0, 0, 0, 0, 0, 0, 0, 0, 0, 0, 0, 0, 0, 0, 0, 0, 0, 0, 0, 0, 0, 0, 0, 0, 0, 0, 0, 0, 0, 0, 0,
  0, 0, 0, 0, 0, 0, 0, 0, 0, 0, 0, 0, 0, 0, 0, 0, 0, 0, 0, 0, 0, 0, 0, 0, 0, 0, 0, 0, 0, 0, 0, 0, 0, 0, 0, 0, 0, 0,
  0, 0, 0, 0, 0, 0, 0, 0, 0, 0, 0, 0, 0, 0, 0, 0, 0, 0, 0, 0, 0, 0, 0, 0, 0, 0, 0, 0, 0, 0, 0, 0, 0, 0, 0, 0, 0, 0,
  0, 0, 0, 0, 0, 0, 0, 0, 114, 111, 99, 107, 95, 114, 111, 98, 111, 116, 105, 99, 0, 0, 0, 0, 17, 39, 240, 0, 67,
  79, 80, 67, 32, 101, 120, 116, 101, 110, 100, 101, 100, 32, 115, 116, 97, 116, 115, 0, 0, 0, 0, 0, 0, 0, 0, 0, 0,
  0, 0, 0, 0, 0, 0, 0, 0, 0, 0, 0, 0, 0, 0, 0, 0, 0, 240, 63, 0, 0, 0, 0, 0, 0, 0, 0, 0, 0, 0, 0, 0, 0, 240, 63, 0,
  0, 0, 0, 0, 0, 0, 0, 0, 0, 0, 0, 0, 0, 240, 63, 0, 0, 0, 0, 0, 0, 0, 0, 0, 0, 0, 0, 0, 0, 240, 63, 0, 0, 0, 0, 0,
  0, 0, 0, 0, 0, 0, 0, 0, 0, 240, 63, 0, 0, 0, 0, 0, 0, 0, 0, 0, 0, 0, 0, 0, 0, 240, 63, 0, 0, 0, 0, 0, 0, 0, 0, 0,
  0, 0, 0, 0, 0, 240, 63, 0, 0, 0, 0, 0, 0, 0, 0, 0, 0, 0, 0, 0, 0, 240, 63, 0, 0, 0, 0, 0, 0, 0, 0, 0, 0, 0, 0, 0,
  0, 240, 63, 0, 0, 0, 0, 0, 0, 0, 0, 0, 0, 0, 0, 0, 0, 240, 63, 0, 0, 0, 0, 0, 0, 0, 0, 0, 0, 0, 0, 0, 0, 240, 63,
  0, 0, 0, 0, 0, 0, 0, 0, 0, 0, 0, 0, 0, 0, 240, 63, 0, 0, 0, 0, 0, 0, 0, 0, 0, 0, 0, 0, 0, 0, 240, 63, 0, 0, 0, 0,
  0, 0, 0, 0, 0, 0, 0, 0, 0, 0, 240, 63, 0, 0, 0, 0, 0, 0, 0, 0, 0, 0, 0, 0, 0, 0, 240, 63, 0, 0, 76, 65, 83, 70,
  95, 83, 112, 101, 99, 0, 0, 0, 0, 0, 0, 0, 4, 0, 192, 0, 0, 0, 0, 0, 0, 0, 0, 0, 0, 0, 0, 0, 0, 0, 0, 0, 0, 0, 0,
  0, 0, 0, 0, 0, 0, 0, 0, 0, 0, 0, 0, 0, 0, 0, 1, 0, 0, 0, 0, 0, 0, 0, 0, 0, 0, 0, 0, 0, 0, 0, 0, 0, 0, 0, 0, 0, 0,
  0, 0, 0, 0, 0, 0, 0, 0, 0, 0, 0, 0, 0, 0, 0, 0, 0, 0, 0, 0, 0, 0, 0, 0, 0, 0, 0, 0, 0, 0, 0, 0, 0, 0, 0, 0, 0, 0,
  0, 0, 0, 0, 0, 0, 0, 0, 0, 0, 0, 0, 0, 0, 0, 0, 0, 0, 0, 0, 0, 0, 0, 0, 0, 0, 0, 0, 0, 0, 0, 0, 0, 0, 0, 0, 0, 0,
  0, 0, 0, 0, 0, 0, 0, 0, 0, 0, 0, 0, 0, 0, 0, 0, 0, 0, 0, 0, 0, 0, 0, 0, 0, 0, 0, 0, 0, 0, 0, 0, 0, 0, 0, 0, 0, 0,
  0, 0, 0, 0, 0, 0, 0, 0, 0, 0, 0, 0, 0, 0, 0, 0, 0, 0, 0, 0, 0, 0, 0, 0, 0, 0, 0, 0, 0, 0, 0, 0, 0, 0, 0, 0, 0, 0,
  0, 0, 0, 0, 0, 0, 0, 0, 0, 0, 0, 0, 0, 0, 0, 0, 0, 108, 97, 115, 122, 105, 112, 32, 101, 110, 99, 111, 100, 101,
  100, 0, 0, 188, 86, 46, 0, 108, 97, 122, 112, 101, 114, 102, 32, 118, 97, 114, 105, 97, 110, 116, 0, 0, 0, 0, 0,
  0, 0, 0, 0, 0, 0, 0, 0, 0, 0, 0, 0, 1, 1, 1, 1, 1, 1, 1, 1, 1, 1, 1, 1, 255, 255, 255, 255, 1, 1, 1, 1, 1, 1, 1, 1, 1, 1,
  1, 1, 1, 1, 1, 1, 1, 1, 1, 1, 1, 1, 1, 1, 1, 1, 1, 1, 1, 1, 0, 6, 0, 0, 0, 0, 0, 0, 4, 5, 6, 7, 8, 0, 0, 0, 0, 2,
  0, 0, 0, 1, 0, 0, 0, 0, 0, 0, 0, 2, 0, 0, 0, 0, 0, 0, 0, 2, 0, 0, 0, 0, 0, 0, 0, 3, 0, 0, 0, 0, 0, 0, 0, 0, 0,
  99, 111, 112, 99, 0, 0, 0, 0, 0, 0, 0, 0, 0, 0, 0, 0, 232, 3, 32, 0, 0, 0, 0, 0, 0, 0, 40, 49, 44, 32, 49, 44,
  32, 48, 44, 32, 49, 41, 0, 0, 0, 0, 0, 0, 0, 0, 0, 0, 0, 0, 0, 0, 0, 0, 0, 0, 0, 0, 2, 0, 0, 0, 2, 0, 0, 0, 1, 0,
  0, 0, 3, 0, 0, 0, 253, 5, 0, 0, 0, 0, 0, 0, 3, 0, 0, 0, 2, 0, 0, 0, 0, 0, 99, 111, 112, 99, 0, 0, 0, 0, 0, 0, 0,
  0, 0, 0, 0, 0, 232, 3, 64, 0, 0, 0, 0, 0, 0, 0, 40, 48, 44, 32, 48, 44, 32, 48, 44, 32, 48, 41, 0, 0, 0, 0, 0, 0,
  0, 0, 0, 0, 0, 0, 0, 0, 0, 0, 0, 0, 0, 0, 2, 0, 0, 0, 2, 0, 0, 0, 1, 0, 0, 0, 3, 0, 0, 0, 251, 5, 0, 0, 0, 0, 0,
  0, 2, 0, 0, 0, 1, 0, 0, 0, 1, 0, 0, 0, 1, 0, 0, 0, 0, 0, 0, 0, 1, 0, 0, 0, 100, 6, 0, 0, 0, 0, 0, 0, 32, 0, 0, 0,
  255, 255, 255, 255]

/-- `Rewritten` of a run of additions, from what can be computed. -/
theorem rewritten_of {L : Lazperf} {ord : Order} {c : CopcConfig} {o : Writer.Overrides} {w0 : Writer}
    (hm : Writer.make OStream.fresh c o = .ok w0)
    {ops : List Op} (hops : ∀ op ∈ ops, op.isAdd = true) {h : List (Op × Res (Option Node))} {w : Writer} {data : Bytes}
    (hh : (Sample.run L ord ops w0 []).1 = h) (hw : (Sample.run L ord ops w0 []).2 = w)
    {outs : List (Res (Option Node))} (houts : h.map (·.2) = outs) (hub : ∀ x ∈ outs, x.isOk = true) :
    History L ord w0 h w ∧ Unclosed h ∧ addedNodes h = gotNodes outs ∧ ∀ k, movedTo h k = [] := by
  have hadd : addedNodes h = gotNodes outs := by rw [added_of_outcomes, houts]
  have hall : ∀ x ∈ h, x.1.isAdd = true := by
    intro x hx
    have : x.1 ∈ (Sample.run L ord ops w0 []).1.map (·.1) := by rw [hh]; exact List.mem_map_of_mem hx
    rw [run_ops] at this
    exact hops _ this
  refine ⟨?_, ?_, hadd, unmoved_of_adds hall⟩
  · rw [← hh, ← hw]
    refine Sample.run_history ops w0 [] .start ?_
    rw [hh]
    intro x hx he
    have : x.2 ∈ h.map (·.2) := List.mem_map_of_mem hx
    rw [houts, he] at this
    exact absurd (hub _ this) (by simp [Res.isOk])
  · intro x hx he
    have := hall x hx
    rw [he] at this
    cases this

theorem closes_of {x : Res Unit × Writer} {d : Bytes} (h1 : x.1 = .ok ()) (h2 : x.2.base.out.data = d) :
    ∃ w', x = (.ok (), w') ∧ w'.base.out.data = d := ⟨x.2, Prod.ext h1 rfl, h2⟩

namespace AgainSample

/-- The node `kA` is added twice, with the page `kA`. -/
def ops : List Op := [.add VoxelKey.root (recAt 1 2 3 ++ recAt 7 0 8) VoxelKey.root,
  .add Sample.kA (recAt 5 1 6) Sample.kA, .add Sample.kA (recAt 6 4 4 ++ recAt 8 0 8) Sample.kA]
def outs : List (Res (Option Node)) := [.ok (some ⟨⟨VoxelKey.root, 1531, 62, 2⟩, VoxelKey.root⟩),
  .ok (some ⟨⟨Sample.kA, 1593, 31, 1⟩, Sample.kA⟩), .ok (some ⟨⟨Sample.kA, 1624, 62, 2⟩, Sample.kA⟩)]
def hist : List (Op × Res (Option Node)) := (Sample.run Sample.L Sample.ord ops CutSample.w0 []).1
def w : Writer := (Sample.run Sample.L Sample.ord ops CutSample.w0 []).2

theorem hist_eq : (Sample.run Sample.L Sample.ord ops CutSample.w0 []).1 = hist := by rw [hist]
theorem w_eq : (Sample.run Sample.L Sample.ord ops CutSample.w0 []).2 = w := by rw [w]
theorem outcomes : hist.map (·.2) = outs := by decide +kernel
theorem closes : (Writer.close Sample.L Sample.ord w).1 = .ok () := by decide +kernel
theorem bytes : (Writer.close Sample.L Sample.ord w).2.base.out.data = againBytes := by decide +kernel
theorem cfg_same : w.cfg = CutSample.w.cfg := by decide +kernel

theorem written : Rewritten Sample.L Sample.ord CutSample.w0 w hist againBytes := by
  obtain ⟨h1, h2, h3, h4⟩ := rewritten_of (data := againBytes) CutSample.made
    (by intro op h; simp only [ops, List.mem_cons, List.not_mem_nil, or_false] at h; rcases h with rfl | rfl | rfl <;> rfl)
    hist_eq w_eq outcomes (by decide)
  refine ⟨⟨_, _, CutSample.made⟩, h1, h2, closes_of closes bytes, ⟨?_, h4⟩, ?_, ?_, by decide +kernel,
    by decide +kernel⟩
  · rw [h3]; decide
  · unfold Counted; rw [h3]; decide
  · rw [cfg_same]; exact CutSample.storable

end AgainSample

/-- A key is added twice: the theorems apply, and the second node is what the reader finds. -/
example : ∃ r r', Reader.init ⟨againBytes, 0, false⟩ = .ok r ∧
    Run.Ends (fun k => Reader.findNode k Sample.kA) r (.ok ⟨⟨Sample.kA, 1624, 62, 2⟩, Sample.kA⟩, r') := by
  obtain ⟨r, hr, _⟩ := C75_opens_partial AgainSample.written
  obtain ⟨r', h⟩ := C75_findNode_partial AgainSample.written hr (.none (L := Sample.L)) Sample.kA
  have : lastAdded AgainSample.hist Sample.kA = ⟨⟨Sample.kA, 1624, 62, 2⟩, Sample.kA⟩ := by
    unfold lastAdded
    rw [added_of_outcomes, AgainSample.outcomes]
    decide
  rw [this] at h
  exact ⟨r, r', hr, h⟩

namespace StaleSample

/-- The node `kB` is added with the page of the root and then with the page `kA`. -/
def ops : List Op := [.addCompressed Sample.kB [4, 5] 1 VoxelKey.root, .addCompressed Sample.kB [6, 7, 8] 2 Sample.kA]
def old : Node := ⟨⟨Sample.kB, 1531, 2, 1⟩, VoxelKey.root⟩
def new : Node := ⟨⟨Sample.kB, 1533, 3, 2⟩, Sample.kA⟩
def outs : List (Res (Option Node)) := [.ok (some old), .ok (some new)]
def hist : List (Op × Res (Option Node)) := (Sample.run Sample.L Sample.ord ops CutSample.w0 []).1
def w : Writer := (Sample.run Sample.L Sample.ord ops CutSample.w0 []).2

theorem hist_eq : (Sample.run Sample.L Sample.ord ops CutSample.w0 []).1 = hist := by rw [hist]
theorem w_eq : (Sample.run Sample.L Sample.ord ops CutSample.w0 []).2 = w := by rw [w]
theorem outcomes : hist.map (·.2) = outs := by decide +kernel
theorem closes : (Writer.close Sample.L Sample.ord w).1 = .ok () := by decide +kernel
theorem bytes : (Writer.close Sample.L Sample.ord w).2.base.out.data = staleBytes := by decide +kernel
theorem found : w.findNode Sample.kB = new := by decide +kernel

def reader : Option Reader := match Reader.init ⟨staleBytes, 0, false⟩ with
  | .ok r => some r
  | _ => none

/-- What a run returned. -/
def got {α : Type} (x : Option (Res α × Reader)) : Option α := match x with
  | some (.ok a, _) => some a
  | _ => none

theorem first : reader.map (fun r => got (Reader.findNode 10 Sample.kB r)) = some (some old) := by decide +kernel
theorem all : reader.map (fun r => got (Reader.getAllNodes ROrder.plain 10 r)) = some (some [new, old]) := by decide +kernel
theorem then_ : reader.bind (fun r => (Reader.getAllNodes ROrder.plain 10 r).map fun p => got (Reader.findNode 10 Sample.kB p.2)) =
    some (some new) := by decide +kernel

theorem got_some {α : Type} {x : Option (Res α × Reader)} {a : α} (h : got x = some a) : ∃ s, x = some (.ok a, s) := by
  cases x with
  | none => cases h
  | some p =>
    obtain ⟨b, s⟩ := p
    cases b with
    | ok b =>
      obtain rfl : b = a := Option.some.inj h
      exact ⟨s, rfl⟩
    | throw e => cases h
    | ub => cases h

end StaleSample

/-- C75 does not hold as it stands: a key that is added again with another page is listed in both, `GetAllNodes` returns
both nodes, and which of them `FindNode` returns depends on what was asked before. -/
theorem C75_violated : ∃ (L : Lazperf) (ord : Order) (c : CopcConfig) (o : Writer.Overrides) (w0 w w' : Writer)
    (h : List (Op × Res (Option Node))) (old new : Node) (r r1 r2 r3 : Reader),
    Writer.make OStream.fresh c o = .ok w0 ∧ History L ord w0 h w ∧ Unclosed h ∧ addedNodes h = [old, new] ∧
    (∀ k, movedTo h k = []) ∧ old.entry.key = new.entry.key ∧ w.findNode new.entry.key = new ∧ old ≠ new ∧
    Writer.close L ord w = (.ok (), w') ∧ Reader.init ⟨w'.base.out.data, 0, false⟩ = .ok r ∧
    Run.Ends (fun k => Reader.findNode k new.entry.key) r (.ok old, r1) ∧
    Run.Ends (fun k => Reader.getAllNodes ROrder.plain k) r (.ok [new, old], r2) ∧
    Run.Ends (fun k => Reader.findNode k new.entry.key) r2 (.ok new, r3) := by
  obtain ⟨h1, h2, h3, h4⟩ := rewritten_of (data := staleBytes) CutSample.made
    (by intro op h; simp only [StaleSample.ops, List.mem_cons, List.not_mem_nil, or_false] at h; rcases h with rfl | rfl <;> rfl)
    StaleSample.hist_eq StaleSample.w_eq StaleSample.outcomes (by decide)
  have e1 := StaleSample.first
  have e2 := StaleSample.all
  have e3 := StaleSample.then_
  unfold StaleSample.reader at e1 e2 e3
  cases hi : Reader.init ⟨staleBytes, 0, false⟩ with
  | throw e => rw [hi] at e1; cases e1
  | ub => rw [hi] at e1; cases e1
  | ok r =>
    rw [hi] at e1 e2 e3
    obtain ⟨r1, f1⟩ := StaleSample.got_some (Option.some.inj e1)
    obtain ⟨r2, f2⟩ := StaleSample.got_some (Option.some.inj e2)
    dsimp only [Option.bind] at e3
    rw [f2] at e3
    obtain ⟨r3, f3⟩ := StaleSample.got_some (Option.some.inj e3)
    exact ⟨Sample.L, Sample.ord, _, _, CutSample.w0, StaleSample.w, _, StaleSample.hist, StaleSample.old, StaleSample.new, r, r1, r2, r3,
      CutSample.made, h1, h2, h3, h4, rfl, StaleSample.found, by decide, Prod.ext StaleSample.closes rfl,
      by rw [StaleSample.bytes]; exact hi, Reader.findNode_ends f1, Reader.allNodes_ends f2, Reader.findNode_ends f3⟩

/-- A key added twice counts twice: of the points counted in the header only those of the second node are found. -/
theorem C75_count_violated :
    let ops : List Op := [.addCompressed Sample.kB [4, 5] 1 VoxelKey.root, .addCompressed Sample.kB [6, 7, 8] 2 VoxelKey.root]
    let r := Sample.run Sample.L Sample.ord ops Sample.w0 []
    r.1.map (·.2) = [.ok (some ⟨⟨Sample.kB, 1531, 2, 1⟩, VoxelKey.root⟩), .ok (some ⟨⟨Sample.kB, 1533, 3, 2⟩, VoxelKey.root⟩)] ∧
    r.2.findNode Sample.kB = ⟨⟨Sample.kB, 1533, 3, 2⟩, VoxelKey.root⟩ ∧ r.2.base.pointCount = 3 := by
  decide +kernel

end Copc
