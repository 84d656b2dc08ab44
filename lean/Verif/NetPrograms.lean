import Verif.SortNet

/-! Generated by tools/networks2lean.py from hwy/contrib/sort/sorting_networks-inl.h; one entry per statement. -/

namespace Hwy
namespace VQ
namespace Net

/-- `Sort2` (sorting_networks-inl.h:82-84). -/
def sort2 : List Op := [
  .sort2 0 1]

/-- `Sort4` (sorting_networks-inl.h:87-93). -/
def sort4 : List Op := [
  .sort2 0 2, .sort2 1 3, .sort2 0 1, .sort2 2 3,
  .sort2 1 2]

/-- `Sort8` (sorting_networks-inl.h:96-122). -/
def sort8 : List Op := [
  .sort2 0 2, .sort2 1 3, .sort2 4 6, .sort2 5 7,
  .sort2 0 4, .sort2 1 5, .sort2 2 6, .sort2 3 7,
  .sort2 0 1, .sort2 2 3, .sort2 4 5, .sort2 6 7,
  .sort2 2 4, .sort2 3 5, .sort2 1 4, .sort2 3 6,
  .sort2 1 2, .sort2 3 4, .sort2 5 6]

/-- `Sort16` (sorting_networks-inl.h:126-189). -/
def sort16 : List Op := [
  .sort2 0 1, .sort2 2 3, .sort2 4 5, .sort2 6 7,
  .sort2 8 9, .sort2 10 11, .sort2 12 13, .sort2 14 15,
  .sort2 0 2, .sort2 1 3, .sort2 4 6, .sort2 5 7,
  .sort2 8 10, .sort2 9 11, .sort2 12 14, .sort2 13 15,
  .sort2 0 4, .sort2 1 5, .sort2 2 6, .sort2 3 7,
  .sort2 8 12, .sort2 9 13, .sort2 10 14, .sort2 11 15,
  .sort2 0 8, .sort2 1 9, .sort2 2 10, .sort2 3 11,
  .sort2 4 12, .sort2 5 13, .sort2 6 14, .sort2 7 15,
  .sort2 5 10, .sort2 6 9, .sort2 3 12, .sort2 7 11,
  .sort2 13 14, .sort2 4 8, .sort2 1 2, .sort2 1 4,
  .sort2 7 13, .sort2 2 8, .sort2 11 14, .sort2 2 4,
  .sort2 5 6, .sort2 9 10, .sort2 11 13, .sort2 3 8,
  .sort2 7 12, .sort2 3 5, .sort2 6 8, .sort2 7 9,
  .sort2 10 12, .sort2 3 4, .sort2 5 6, .sort2 7 8,
  .sort2 9 10, .sort2 11 12, .sort2 6 7, .sort2 8 9]

/-- `Merge8x2` (sorting_networks-inl.h:227-264). -/
def merge8x2 : List Op := [
  .reverseKeys 2 7, .reverseKeys 2 6, .reverseKeys 2 5, .reverseKeys 2 4,
  .sort2 0 7, .sort2 1 6, .sort2 2 5, .sort2 3 4,
  .reverseKeys 2 3, .reverseKeys 2 2, .reverseKeys 2 7, .reverseKeys 2 6,
  .sort2 0 3, .sort2 1 2, .sort2 4 7, .sort2 5 6,
  .reverseKeys 2 1, .reverseKeys 2 3, .reverseKeys 2 5, .reverseKeys 2 7,
  .sort2 0 1, .sort2 2 3, .sort2 4 5, .sort2 6 7,
  .sortPairsDistance 1 0, .sortPairsDistance 1 1, .sortPairsDistance 1 2, .sortPairsDistance 1 3,
  .sortPairsDistance 1 4, .sortPairsDistance 1 5, .sortPairsDistance 1 6, .sortPairsDistance 1 7]

/-- `Merge8x4` (sorting_networks-inl.h:268-314). -/
def merge8x4 : List Op := [
  .reverseKeys 4 7, .reverseKeys 4 6, .reverseKeys 4 5, .reverseKeys 4 4,
  .sort2 0 7, .sort2 1 6, .sort2 2 5, .sort2 3 4,
  .reverseKeys 4 3, .reverseKeys 4 2, .reverseKeys 4 7, .reverseKeys 4 6,
  .sort2 0 3, .sort2 1 2, .sort2 4 7, .sort2 5 6,
  .reverseKeys 4 1, .reverseKeys 4 3, .reverseKeys 4 5, .reverseKeys 4 7,
  .sort2 0 1, .sort2 2 3, .sort2 4 5, .sort2 6 7,
  .sortPairsReverse 4 0, .sortPairsReverse 4 1, .sortPairsReverse 4 2, .sortPairsReverse 4 3,
  .sortPairsReverse 4 4, .sortPairsReverse 4 5, .sortPairsReverse 4 6, .sortPairsReverse 4 7,
  .sortPairsDistance 1 0, .sortPairsDistance 1 1, .sortPairsDistance 1 2, .sortPairsDistance 1 3,
  .sortPairsDistance 1 4, .sortPairsDistance 1 5, .sortPairsDistance 1 6, .sortPairsDistance 1 7]

/-- `Merge16x2` (sorting_networks-inl.h:319-406). -/
def merge16x2 : List Op := [
  .reverseKeys 2 15, .reverseKeys 2 14, .reverseKeys 2 13, .reverseKeys 2 12,
  .reverseKeys 2 11, .reverseKeys 2 10, .reverseKeys 2 9, .reverseKeys 2 8,
  .sort2 0 15, .sort2 1 14, .sort2 2 13, .sort2 3 12,
  .sort2 4 11, .sort2 5 10, .sort2 6 9, .sort2 7 8,
  .reverseKeys 2 7, .reverseKeys 2 6, .reverseKeys 2 5, .reverseKeys 2 4,
  .reverseKeys 2 15, .reverseKeys 2 14, .reverseKeys 2 13, .reverseKeys 2 12,
  .sort2 0 7, .sort2 1 6, .sort2 2 5, .sort2 3 4,
  .sort2 8 15, .sort2 9 14, .sort2 10 13, .sort2 11 12,
  .reverseKeys 2 3, .reverseKeys 2 2, .reverseKeys 2 7, .reverseKeys 2 6,
  .reverseKeys 2 11, .reverseKeys 2 10, .reverseKeys 2 15, .reverseKeys 2 14,
  .sort2 0 3, .sort2 1 2, .sort2 4 7, .sort2 5 6,
  .sort2 8 11, .sort2 9 10, .sort2 12 15, .sort2 13 14,
  .reverseKeys 2 1, .reverseKeys 2 3, .reverseKeys 2 5, .reverseKeys 2 7,
  .reverseKeys 2 9, .reverseKeys 2 11, .reverseKeys 2 13, .reverseKeys 2 15,
  .sort2 0 1, .sort2 2 3, .sort2 4 5, .sort2 6 7,
  .sort2 8 9, .sort2 10 11, .sort2 12 13, .sort2 14 15,
  .sortPairsDistance 1 0, .sortPairsDistance 1 1, .sortPairsDistance 1 2, .sortPairsDistance 1 3,
  .sortPairsDistance 1 4, .sortPairsDistance 1 5, .sortPairsDistance 1 6, .sortPairsDistance 1 7,
  .sortPairsDistance 1 8, .sortPairsDistance 1 9, .sortPairsDistance 1 10, .sortPairsDistance 1 11,
  .sortPairsDistance 1 12, .sortPairsDistance 1 13, .sortPairsDistance 1 14, .sortPairsDistance 1 15]

/-- `Merge16x4` (sorting_networks-inl.h:410-514). -/
def merge16x4 : List Op := [
  .reverseKeys 4 15, .reverseKeys 4 14, .reverseKeys 4 13, .reverseKeys 4 12,
  .reverseKeys 4 11, .reverseKeys 4 10, .reverseKeys 4 9, .reverseKeys 4 8,
  .sort2 0 15, .sort2 1 14, .sort2 2 13, .sort2 3 12,
  .sort2 4 11, .sort2 5 10, .sort2 6 9, .sort2 7 8,
  .reverseKeys 4 7, .reverseKeys 4 6, .reverseKeys 4 5, .reverseKeys 4 4,
  .reverseKeys 4 15, .reverseKeys 4 14, .reverseKeys 4 13, .reverseKeys 4 12,
  .sort2 0 7, .sort2 1 6, .sort2 2 5, .sort2 3 4,
  .sort2 8 15, .sort2 9 14, .sort2 10 13, .sort2 11 12,
  .reverseKeys 4 3, .reverseKeys 4 2, .reverseKeys 4 7, .reverseKeys 4 6,
  .reverseKeys 4 11, .reverseKeys 4 10, .reverseKeys 4 15, .reverseKeys 4 14,
  .sort2 0 3, .sort2 1 2, .sort2 4 7, .sort2 5 6,
  .sort2 8 11, .sort2 9 10, .sort2 12 15, .sort2 13 14,
  .reverseKeys 4 1, .reverseKeys 4 3, .reverseKeys 4 5, .reverseKeys 4 7,
  .reverseKeys 4 9, .reverseKeys 4 11, .reverseKeys 4 13, .reverseKeys 4 15,
  .sort2 0 1, .sort2 2 3, .sort2 4 5, .sort2 6 7,
  .sort2 8 9, .sort2 10 11, .sort2 12 13, .sort2 14 15,
  .sortPairsReverse 4 0, .sortPairsReverse 4 1, .sortPairsReverse 4 2, .sortPairsReverse 4 3,
  .sortPairsReverse 4 4, .sortPairsReverse 4 5, .sortPairsReverse 4 6, .sortPairsReverse 4 7,
  .sortPairsReverse 4 8, .sortPairsReverse 4 9, .sortPairsReverse 4 10, .sortPairsReverse 4 11,
  .sortPairsReverse 4 12, .sortPairsReverse 4 13, .sortPairsReverse 4 14, .sortPairsReverse 4 15,
  .sortPairsDistance 1 0, .sortPairsDistance 1 1, .sortPairsDistance 1 2, .sortPairsDistance 1 3,
  .sortPairsDistance 1 4, .sortPairsDistance 1 5, .sortPairsDistance 1 6, .sortPairsDistance 1 7,
  .sortPairsDistance 1 8, .sortPairsDistance 1 9, .sortPairsDistance 1 10, .sortPairsDistance 1 11,
  .sortPairsDistance 1 12, .sortPairsDistance 1 13, .sortPairsDistance 1 14, .sortPairsDistance 1 15]

/-- `Merge16x8` (sorting_networks-inl.h:518-639). -/
def merge16x8 : List Op := [
  .reverseKeys 8 15, .reverseKeys 8 14, .reverseKeys 8 13, .reverseKeys 8 12,
  .reverseKeys 8 11, .reverseKeys 8 10, .reverseKeys 8 9, .reverseKeys 8 8,
  .sort2 0 15, .sort2 1 14, .sort2 2 13, .sort2 3 12,
  .sort2 4 11, .sort2 5 10, .sort2 6 9, .sort2 7 8,
  .reverseKeys 8 7, .reverseKeys 8 6, .reverseKeys 8 5, .reverseKeys 8 4,
  .reverseKeys 8 15, .reverseKeys 8 14, .reverseKeys 8 13, .reverseKeys 8 12,
  .sort2 0 7, .sort2 1 6, .sort2 2 5, .sort2 3 4,
  .sort2 8 15, .sort2 9 14, .sort2 10 13, .sort2 11 12,
  .reverseKeys 8 3, .reverseKeys 8 2, .reverseKeys 8 7, .reverseKeys 8 6,
  .reverseKeys 8 11, .reverseKeys 8 10, .reverseKeys 8 15, .reverseKeys 8 14,
  .sort2 0 3, .sort2 1 2, .sort2 4 7, .sort2 5 6,
  .sort2 8 11, .sort2 9 10, .sort2 12 15, .sort2 13 14,
  .reverseKeys 8 1, .reverseKeys 8 3, .reverseKeys 8 5, .reverseKeys 8 7,
  .reverseKeys 8 9, .reverseKeys 8 11, .reverseKeys 8 13, .reverseKeys 8 15,
  .sort2 0 1, .sort2 2 3, .sort2 4 5, .sort2 6 7,
  .sort2 8 9, .sort2 10 11, .sort2 12 13, .sort2 14 15,
  .sortPairsReverse 8 0, .sortPairsReverse 8 1, .sortPairsReverse 8 2, .sortPairsReverse 8 3,
  .sortPairsReverse 8 4, .sortPairsReverse 8 5, .sortPairsReverse 8 6, .sortPairsReverse 8 7,
  .sortPairsReverse 8 8, .sortPairsReverse 8 9, .sortPairsReverse 8 10, .sortPairsReverse 8 11,
  .sortPairsReverse 8 12, .sortPairsReverse 8 13, .sortPairsReverse 8 14, .sortPairsReverse 8 15,
  .sortPairsDistance 2 0, .sortPairsDistance 2 1, .sortPairsDistance 2 2, .sortPairsDistance 2 3,
  .sortPairsDistance 2 4, .sortPairsDistance 2 5, .sortPairsDistance 2 6, .sortPairsDistance 2 7,
  .sortPairsDistance 2 8, .sortPairsDistance 2 9, .sortPairsDistance 2 10, .sortPairsDistance 2 11,
  .sortPairsDistance 2 12, .sortPairsDistance 2 13, .sortPairsDistance 2 14, .sortPairsDistance 2 15,
  .sortPairsDistance 1 0, .sortPairsDistance 1 1, .sortPairsDistance 1 2, .sortPairsDistance 1 3,
  .sortPairsDistance 1 4, .sortPairsDistance 1 5, .sortPairsDistance 1 6, .sortPairsDistance 1 7,
  .sortPairsDistance 1 8, .sortPairsDistance 1 9, .sortPairsDistance 1 10, .sortPairsDistance 1 11,
  .sortPairsDistance 1 12, .sortPairsDistance 1 13, .sortPairsDistance 1 14, .sortPairsDistance 1 15]

/-- `Merge16x16` (sorting_networks-inl.h:646-784). -/
def merge16x16 : List Op := [
  .reverseKeys 16 15, .reverseKeys 16 14, .reverseKeys 16 13, .reverseKeys 16 12,
  .reverseKeys 16 11, .reverseKeys 16 10, .reverseKeys 16 9, .reverseKeys 16 8,
  .sort2 0 15, .sort2 1 14, .sort2 2 13, .sort2 3 12,
  .sort2 4 11, .sort2 5 10, .sort2 6 9, .sort2 7 8,
  .reverseKeys 16 7, .reverseKeys 16 6, .reverseKeys 16 5, .reverseKeys 16 4,
  .reverseKeys 16 15, .reverseKeys 16 14, .reverseKeys 16 13, .reverseKeys 16 12,
  .sort2 0 7, .sort2 1 6, .sort2 2 5, .sort2 3 4,
  .sort2 8 15, .sort2 9 14, .sort2 10 13, .sort2 11 12,
  .reverseKeys 16 3, .reverseKeys 16 2, .reverseKeys 16 7, .reverseKeys 16 6,
  .reverseKeys 16 11, .reverseKeys 16 10, .reverseKeys 16 15, .reverseKeys 16 14,
  .sort2 0 3, .sort2 1 2, .sort2 4 7, .sort2 5 6,
  .sort2 8 11, .sort2 9 10, .sort2 12 15, .sort2 13 14,
  .reverseKeys 16 1, .reverseKeys 16 3, .reverseKeys 16 5, .reverseKeys 16 7,
  .reverseKeys 16 9, .reverseKeys 16 11, .reverseKeys 16 13, .reverseKeys 16 15,
  .sort2 0 1, .sort2 2 3, .sort2 4 5, .sort2 6 7,
  .sort2 8 9, .sort2 10 11, .sort2 12 13, .sort2 14 15,
  .sortPairsReverse 16 0, .sortPairsReverse 16 1, .sortPairsReverse 16 2, .sortPairsReverse 16 3,
  .sortPairsReverse 16 4, .sortPairsReverse 16 5, .sortPairsReverse 16 6, .sortPairsReverse 16 7,
  .sortPairsReverse 16 8, .sortPairsReverse 16 9, .sortPairsReverse 16 10, .sortPairsReverse 16 11,
  .sortPairsReverse 16 12, .sortPairsReverse 16 13, .sortPairsReverse 16 14, .sortPairsReverse 16 15,
  .sortPairsDistance 4 0, .sortPairsDistance 4 1, .sortPairsDistance 4 2, .sortPairsDistance 4 3,
  .sortPairsDistance 4 4, .sortPairsDistance 4 5, .sortPairsDistance 4 6, .sortPairsDistance 4 7,
  .sortPairsDistance 4 8, .sortPairsDistance 4 9, .sortPairsDistance 4 10, .sortPairsDistance 4 11,
  .sortPairsDistance 4 12, .sortPairsDistance 4 13, .sortPairsDistance 4 14, .sortPairsDistance 4 15,
  .sortPairsDistance 2 0, .sortPairsDistance 2 1, .sortPairsDistance 2 2, .sortPairsDistance 2 3,
  .sortPairsDistance 2 4, .sortPairsDistance 2 5, .sortPairsDistance 2 6, .sortPairsDistance 2 7,
  .sortPairsDistance 2 8, .sortPairsDistance 2 9, .sortPairsDistance 2 10, .sortPairsDistance 2 11,
  .sortPairsDistance 2 12, .sortPairsDistance 2 13, .sortPairsDistance 2 14, .sortPairsDistance 2 15,
  .sortPairsDistance 1 0, .sortPairsDistance 1 1, .sortPairsDistance 1 2, .sortPairsDistance 1 3,
  .sortPairsDistance 1 4, .sortPairsDistance 1 5, .sortPairsDistance 1 6, .sortPairsDistance 1 7,
  .sortPairsDistance 1 8, .sortPairsDistance 1 9, .sortPairsDistance 1 10, .sortPairsDistance 1 11,
  .sortPairsDistance 1 12, .sortPairsDistance 1 13, .sortPairsDistance 1 14, .sortPairsDistance 1 15]

end Net
end VQ
end Hwy
