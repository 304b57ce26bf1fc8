/-!
# The tests of the repository

Written by `tools/gen_tests.py` from `/repo/tests/*.rs`, `/repo/src/{text_reader,text_writer}.rs` and `/repo/samples`: inputs with the
results the tests expect, as scalar values (the samples as bytes).
-/

namespace Verif.Tables

def readTests0 : List (List Nat × List Nat) := [
  ([0xfeff], []), ([0xfeff, 0xa], [0xa]), ([0xfeff, 0x68, 0x65, 0x6c, 0x6c, 0x6f], [0x68, 0x65, 0x6c, 0x6c, 0x6f, 0xa]), ([0xd, 0xa], [0xa]),
  ([0x68, 0x65, 0x6c, 0x6c, 0x6f, 0xd, 0xa], [0x68, 0x65, 0x6c, 0x6c, 0x6f, 0xa]),
  ([0x68, 0x65, 0x6c, 0x6c, 0x6f, 0xd, 0xa, 0x77, 0x6f, 0x72, 0x6c, 0x64], [0x68, 0x65, 0x6c, 0x6c, 0x6f, 0xa, 0x77, 0x6f, 0x72, 0x6c, 0x64, 0xa]),
  ([0xd], [0xa]), ([0xd, 0x68, 0x65, 0x6c, 0x6c, 0x6f, 0xa], [0xa, 0x68, 0x65, 0x6c, 0x6c, 0x6f, 0xa]),
  ([0xd, 0x68, 0x65, 0x6c, 0x6c, 0x6f, 0xd], [0xa, 0x68, 0x65, 0x6c, 0x6c, 0x6f, 0xa]),
  ([0x68, 0x65, 0x6c, 0x6c, 0x6f, 0xd, 0x77, 0x6f, 0x72, 0x6c, 0x64], [0x68, 0x65, 0x6c, 0x6c, 0x6f, 0xa, 0x77, 0x6f, 0x72, 0x6c, 0x64, 0xa]),
  ([0xa, 0xd], [0xa, 0xa]), ([0x2df5, 0x68, 0x65, 0x6c, 0x6c, 0x6f], [0x34f, 0x2ded, 0x2dee, 0x68, 0x65, 0x6c, 0x6c, 0x6f, 0xa]),
  ([0x68, 0x65, 0x6c, 0x6c, 0x6f, 0x2df5], [0x68, 0x65, 0x6c, 0x6c, 0x6f, 0x2ded, 0x2dee, 0xa]),
  ([0x68, 0x65, 0x6c, 0x6c, 0x6f, 0x2df5, 0x77, 0x6f, 0x72, 0x6c, 0x64], [0x68, 0x65, 0x6c, 0x6c, 0x6f, 0x2ded, 0x2dee, 0x77, 0x6f, 0x72, 0x6c, 0x64, 0xa]),
  ([0x2329], [0xfffd, 0xa]), ([0x232a], [0xfffd, 0xa]), ([0x2126], [0x3a9, 0xa]), ([0x212a], [0x4b, 0xa]), ([0x212b], [0xc5, 0xa]),
  ([0x68, 0x65, 0x6c, 0x6c, 0x6f, 0xfeff, 0x77, 0x6f, 0x72, 0x6c, 0x64], [0x68, 0x65, 0x6c, 0x6c, 0x6f, 0x2060, 0x77, 0x6f, 0x72, 0x6c, 0x64, 0xa]),
  ([0x68, 0x65, 0x6c, 0x6c, 0x6f, 0xfeff], [0x68, 0x65, 0x6c, 0x6c, 0x6f, 0x2060, 0xa]),
  ([0x68, 0x65, 0x6c, 0x6c, 0x6f, 0xfeff, 0xa], [0x68, 0x65, 0x6c, 0x6c, 0x6f, 0x2060, 0xa]), ([7], [0xfffd, 0xa]), ([7, 0xa], [0xfffd, 0xa]),
  ([0x68, 0x65, 0x6c, 0x6c, 0x6f, 7, 0x77, 0x6f, 0x72, 0x6c, 0x64], [0x68, 0x65, 0x6c, 0x6c, 0x6f, 0xfffd, 0x77, 0x6f, 0x72, 0x6c, 0x64, 0xa]),
  ([0xc], [0x20, 0xa]), ([0xc, 0xa], [0xa]), ([0xa, 0xc, 0xa], [0xa, 0xa]),
  ([0x68, 0x65, 0x6c, 0x6c, 0x6f, 0xc, 0x77, 0x6f, 0x72, 0x6c, 0x64], [0x68, 0x65, 0x6c, 0x6c, 0x6f, 0x20, 0x77, 0x6f, 0x72, 0x6c, 0x64, 0xa]),
  ([0x85], [0x20, 0xa]), ([0x85, 0xa], [0x20, 0xa]), ([0xa, 0x85, 0xa], [0xa, 0x20, 0xa]),
  ([0x68, 0x65, 0x6c, 0x6c, 0x6f, 0x85, 0x77, 0x6f, 0x72, 0x6c, 0x64], [0x68, 0x65, 0x6c, 0x6c, 0x6f, 0x20, 0x77, 0x6f, 0x72, 0x6c, 0x64, 0xa]),
  ([0x149], [0x2bc, 0x6e, 0xa]), ([0x673], [0x627, 0x65f, 0xa]), ([0x41, 0xf77], [0x41, 0xfb2, 0xf71, 0xf80, 0xa]),
  ([0x41, 0xf79], [0x41, 0xfb3, 0xf71, 0xf80, 0xa]), ([0x17a3], [0x17a2, 0xa]), ([0x17a4], [0x17a2, 0x17b6, 0xa]), ([0x2028], [0x20, 0xa]),
  ([0x2029], [0x20, 0xa]), ([0x1b, 0x5b], [0xa]), ([0x1b, 0x5b, 0x41], [0xa]), ([0x1b, 0x5b, 0x41, 0x42], [0x42, 0xa]), ([0x1b, 0x5b, 0x2b], [0xa]),
  ([0x1b, 0x5b, 0x2b, 0x41], [0xa]), ([0x1b, 0x5b, 0x2b, 0x41, 0x42], [0x42, 0xa]), ([0x1b, 0x5b, 0x2b, 0x2b], [0xa]),
  ([0x1b, 0x5b, 0x2b, 0x2b, 0x41], [0xa]), ([0x1b, 0x5b, 0x2b, 0x2b, 0x41, 0x42], [0x42, 0xa]), ([0x1b, 0x5b, 0x18, 0x41], [0x41, 0xa]),
  ([0x1b, 0x5b, 0x1b, 0x41, 0x42], [0x42, 0xa]), ([0x1b, 0x5d, 7], [0xa]), ([0x1b, 0x5d, 0x18], [0xa]), ([0x1b, 0x5d, 0x41, 7], [0xa]),
  ([0x1b, 0x5d, 0x41, 0x18], [0xa]), ([0x1b, 0x5d, 0x41, 0x1b, 0x5b, 0x42, 0x43], [0x43, 0xa]),
  ([0x1b, 0x5d, 0x41, 0x1b, 0x5d, 0x43, 0x44, 7, 0x45], [0x45, 0xa]), ([0x1b, 0x5d, 0x41, 0xa, 9, 0x42, 0x104c, 7], [0xa]),
  ([0x1b, 0x5d, 0x41, 0xa, 9, 0x42, 0x104c, 0x18], [0xa]), ([0x1b, 0x5d, 0x18], [0xa]), ([0x1b, 0x5d, 0x41, 0x18], [0xa]),
  ([0x1b, 0x5d, 0x41, 0xa, 9, 0x42, 0x104c, 0x18], [0xa]), ([0x1b, 0x41], [0xa]), ([0x1b, 0x18], [0xa]), ([0x1b, 0x1b, 0x41], [0xa]),
  ([0x1b, 0x41, 0xa], [0xa]), ([0x1b, 9], [9, 0xa]), ([0x1b, 0xa], [0xa]), ([0x1b, 0x5b, 0x5b], [0xa]), ([0x1b, 0x5b, 0x5b, 0x41], [0xa]),
  ([0x1b, 0x5b, 0x5b, 0], [0xa]), ([0x1b, 0x5b, 0x5b, 0x7f], [0xa]), ([0x1b, 0x5b, 0x5b, 0xa], [0xa]), ([0x1b, 0x5b, 0x5b, 0x41, 0xa], [0xa]),
  ([0x1b, 0x5b, 0x5b, 0x18], [0xa]), ([0x1b, 0x5b, 0x5b, 7], [0xa]), ([0x1b, 0x5b, 0x5b, 0x1b, 0x41], [0x41, 0xa]), ([0x1b], [0xa]),
  ([0x1b, 0xa], [0xa]), ([], []), ([0xa], [0xa]), ([0x68, 0x65, 0x6c, 0x6c, 0x6f], [0x68, 0x65, 0x6c, 0x6c, 0x6f, 0xa]),
  ([0x68, 0x65, 0x6c, 0x6c, 0x6f, 0xa, 0x77, 0x6f, 0x72, 0x6c, 0x64], [0x68, 0x65, 0x6c, 0x6c, 0x6f, 0xa, 0x77, 0x6f, 0x72, 0x6c, 0x64, 0xa]),
  ([0x68, 0x65, 0x6c, 0x6c, 0x6f, 0xa, 0x77, 0x6f, 0x72, 0x6c, 0x64, 0xa], [0x68, 0x65, 0x6c, 0x6c, 0x6f, 0xa, 0x77, 0x6f, 0x72, 0x6c, 0x64, 0xa]),
  ([0x68, 0x65, 0x6c, 0x6c, 0x6f, 0xd, 0xa, 0x77, 0x6f, 0x72, 0x6c, 0x64], [0x68, 0x65, 0x6c, 0x6c, 0x6f, 0xa, 0x77, 0x6f, 0x72, 0x6c, 0x64, 0xa]),
  ([0x68, 0x65, 0x6c, 0x6c, 0x6f, 0xd, 0xa, 0x77, 0x6f, 0x72, 0x6c, 0x64, 0xd, 0xa], [0x68, 0x65, 0x6c, 0x6c, 0x6f, 0xa, 0x77, 0x6f, 0x72, 0x6c, 0x64, 0xa]),
  ([], []), ([0xa], [0xa]),
  ([0xa, 0x68, 0x65, 0x6c, 0x6c, 0x6f, 0xa, 0x77, 0x6f, 0x72, 0x6c, 0x64, 0xa], [0xa, 0x68, 0x65, 0x6c, 0x6c, 0x6f, 0xa, 0x77, 0x6f, 0x72, 0x6c, 0x64, 0xa]),
  ([0xfeff], []),
  ([0xfeff, 0x68, 0x65, 0x6c, 0x6c, 0x6f, 0xfeff, 0x77, 0x6f, 0x72, 0x6c, 0x64, 0xfeff], [0x68, 0x65, 0x6c, 0x6c, 0x6f, 0x2060, 0x77, 0x6f, 0x72, 0x6c, 0x64, 0x2060, 0xa]),
  ([0xd, 0xa], [0xa]),
  ([0xd, 0xa, 0x68, 0x65, 0x6c, 0x6c, 0x6f, 0xd, 0xa, 0x77, 0x6f, 0x72, 0x6c, 0x64, 0xd, 0xa], [0xa, 0x68, 0x65, 0x6c, 0x6c, 0x6f, 0xa, 0x77, 0x6f, 0x72, 0x6c, 0x64, 0xa]),
  ([0xd], [0xa]),
  ([0xd, 0x68, 0x65, 0x6c, 0x6c, 0x6f, 0xd, 0x77, 0x6f, 0x72, 0x6c, 0x64, 0xd], [0xa, 0x68, 0x65, 0x6c, 0x6c, 0x6f, 0xa, 0x77, 0x6f, 0x72, 0x6c, 0x64, 0xa]),
  ([0xc], [0x20, 0xa]),
  ([0xc, 0x68, 0x65, 0x6c, 0x6c, 0x6f, 0xc, 0x77, 0x6f, 0x72, 0x6c, 0x64, 0xc], [0x20, 0x68, 0x65, 0x6c, 0x6c, 0x6f, 0x20, 0x77, 0x6f, 0x72, 0x6c, 0x64, 0x20, 0xa]),
  ([0x7f], [0xfffd, 0xa]),
  ([0x7f, 0x68, 0x65, 0x6c, 0x6c, 0x6f, 0x7f, 0x77, 0x6f, 0x72, 0x6c, 0x64, 0x7f], [0xfffd, 0x68, 0x65, 0x6c, 0x6c, 0x6f, 0xfffd, 0x77, 0x6f, 0x72, 0x6c, 0x64, 0xfffd, 0xa])]

def readTests1 : List (List Nat × List Nat) := [
  ([0, 1, 2, 3, 4, 5, 6, 7], [0xfffd, 0xfffd, 0xfffd, 0xfffd, 0xfffd, 0xfffd, 0xfffd, 0xfffd, 0xa]),
  ([8, 0xb, 0xe, 0xf], [0xfffd, 0xfffd, 0xfffd, 0xfffd, 0xa]),
  ([0x10, 0x11, 0x12, 0x13, 0x14, 0x15, 0x16, 0x17], [0xfffd, 0xfffd, 0xfffd, 0xfffd, 0xfffd, 0xfffd, 0xfffd, 0xfffd, 0xa]),
  ([0x18, 0x19, 0x1a, 0x1c, 0x1d, 0x1e, 0x1f], [0xfffd, 0xfffd, 0xfffd, 0xfffd, 0xfffd, 0xfffd, 0xfffd, 0xa]),
  ([0x80, 0x81, 0x82, 0x83, 0x84, 0x85, 0x86, 0x87], [0xfffd, 0xfffd, 0xfffd, 0xfffd, 0xfffd, 0x20, 0xfffd, 0xfffd, 0xa]),
  ([0x88, 0x89, 0x8a, 0x8b, 0x8c, 0x8d, 0x8e, 0x8f], [0xfffd, 0xfffd, 0xfffd, 0xfffd, 0xfffd, 0xfffd, 0xfffd, 0xfffd, 0xa]),
  ([0x90, 0x91, 0x92, 0x93, 0x94, 0x95, 0x96, 0x97], [0xfffd, 0xfffd, 0xfffd, 0xfffd, 0xfffd, 0xfffd, 0xfffd, 0xfffd, 0xa]),
  ([0x98, 0x99, 0x9a, 0x9b, 0x9c, 0x9d, 0x9e, 0x9f], [0xfffd, 0xfffd, 0xfffd, 0xfffd, 0xfffd, 0xfffd, 0xfffd, 0xfffd, 0xa]), ([0x212b], [0xc5, 0xa]),
  ([0xc5], [0xc5, 0xa]), ([0x41, 0x30a], [0xc5, 0xa]), ([0x30a], [0x34f, 0x30a, 0xa]), ([0x1b], [0xa]), ([0x1b, 0x40], [0xa]),
  ([0x1b, 0x40, 0x68, 0x65, 0x6c, 0x6c, 0x6f, 0x1b, 0x40, 0x77, 0x6f, 0x72, 0x6c, 0x64, 0x1b, 0x40], [0x68, 0x65, 0x6c, 0x6c, 0x6f, 0x77, 0x6f, 0x72, 0x6c, 0x64, 0xa]),
  ([0x1b, 0x5b], [0xa]),
  ([0x1b, 0x5b, 0x40, 0x68, 0x65, 0x6c, 0x6c, 0x6f, 0x1b, 0x5b, 0x40, 0x77, 0x6f, 0x72, 0x6c, 0x64, 0x1b, 0x5b, 0x40], [0x68, 0x65, 0x6c, 0x6c, 0x6f, 0x77, 0x6f, 0x72, 0x6c, 0x64, 0xa]),
  ([0x1b, 0x5b, 0x2b, 0x40, 0x68, 0x65, 0x6c, 0x6c, 0x6f, 0x1b, 0x5b, 0x2b, 0x40, 0x77, 0x6f, 0x72, 0x6c, 0x64, 0x1b, 0x5b, 0x2b, 0x40], [0x68, 0x65, 0x6c, 0x6c, 0x6f, 0x77, 0x6f, 0x72, 0x6c, 0x64, 0xa]),
  ([0x1b, 0x5d], [0xa]),
  ([0x1b, 0x5d, 7, 0x68, 0x65, 0x6c, 0x6c, 0x6f, 0x1b, 0x5d, 7, 0x77, 0x6f, 0x72, 0x6c, 0x64, 0x1b, 0x5d, 7], [0x68, 0x65, 0x6c, 0x6c, 0x6f, 0x77, 0x6f, 0x72, 0x6c, 0x64, 0xa]),
  ([0x1b, 0x5d, 0x6d, 0x65, 0x73, 0x73, 0x61, 0x67, 0x65, 7, 0x68, 0x65, 0x6c, 0x6c, 0x6f, 0x1b, 0x5d, 0x6d, 0x65, 0x73, 0x73, 0x61, 0x67, 0x65, 7, 0x77, 0x6f, 0x72, 0x6c, 0x64, 0x1b, 0x5d, 0x6d, 0x65, 0x73, 0x73, 0x61, 0x67, 0x65, 7], [0x68, 0x65, 0x6c, 0x6c, 0x6f, 0x77, 0x6f, 0x72, 0x6c, 0x64, 0xa]),
  ([0x1b, 0x5d, 0x6d, 0x65, 0x73, 0xa, 0x73, 9, 0x61, 0x67, 0x65, 7, 0x68, 0x65, 0x6c, 0x6c, 0x6f, 0x1b, 0x5d, 0x6d, 0x65, 0x73, 0xa, 0x73, 9, 0x61, 0x67, 0x65, 7, 0x77, 0x6f, 0x72, 0x6c, 0x64, 0x1b, 0x5d, 0x6d, 0x65, 0x73, 0xa, 0x73, 9, 0x61, 0x67, 0x65, 7], [0x68, 0x65, 0x6c, 0x6c, 0x6f, 0x77, 0x6f, 0x72, 0x6c, 0x64, 0xa]),
  ([0x1b, 0x5b, 0x5b, 0x41], [0xa]),
  ([0x1b, 0x5b, 0x5b, 0x41, 0x68, 0x65, 0x6c, 0x6c, 0x6f, 0x1b, 0x5b, 0x5b, 0x41, 0x77, 0x6f, 0x72, 0x6c, 0x64, 0x1b, 0x5b, 0x5b, 0x41], [0x68, 0x65, 0x6c, 0x6c, 0x6f, 0x77, 0x6f, 0x72, 0x6c, 0x64, 0xa]),
  ([0x1d455], [0xfffd, 0xa]), ([0x1d455, 0xa], [0xfffd, 0xa]), ([0x11099, 0x110ba], [0x1109a, 0xa]), ([0x1109a], [0x1109a, 0xa]),
  ([0x110ba], [0x34f, 0x110ba, 0xa]), ([0x110ba, 0xa], [0x34f, 0x110ba, 0xa]), ([0x11099, 0x110ba, 0xa], [0x1109a, 0xa]),
  ([0x1109a, 0xa], [0x1109a, 0xa]), ([0], [0xfffd, 0xa]), ([1], [0xfffd, 0xa]), ([2], [0xfffd, 0xa]), ([3], [0xfffd, 0xa]), ([4], [0xfffd, 0xa]),
  ([5], [0xfffd, 0xa]), ([6], [0xfffd, 0xa]), ([7], [0xfffd, 0xa]), ([8], [0xfffd, 0xa]), ([0xb], [0xfffd, 0xa]), ([0xe], [0xfffd, 0xa]),
  ([0xf], [0xfffd, 0xa]), ([0x10], [0xfffd, 0xa]), ([0x11], [0xfffd, 0xa]), ([0x12], [0xfffd, 0xa]), ([0x13], [0xfffd, 0xa]),
  ([0x14], [0xfffd, 0xa]), ([0x15], [0xfffd, 0xa]), ([0x16], [0xfffd, 0xa]), ([0x17], [0xfffd, 0xa]), ([0x18], [0xfffd, 0xa]),
  ([0x19], [0xfffd, 0xa]), ([0x1a], [0xfffd, 0xa]), ([0x1c], [0xfffd, 0xa]), ([0x1d], [0xfffd, 0xa]), ([0x1e], [0xfffd, 0xa]),
  ([0x1f], [0xfffd, 0xa]), ([0x7f], [0xfffd, 0xa]), ([0x80], [0xfffd, 0xa]), ([0x81], [0xfffd, 0xa]), ([0x82], [0xfffd, 0xa]),
  ([0x83], [0xfffd, 0xa]), ([0x84], [0xfffd, 0xa]), ([0x86], [0xfffd, 0xa]), ([0x87], [0xfffd, 0xa]), ([0x88], [0xfffd, 0xa]),
  ([0x89], [0xfffd, 0xa]), ([0x8a], [0xfffd, 0xa]), ([0x8b], [0xfffd, 0xa]), ([0x8c], [0xfffd, 0xa]), ([0x8d], [0xfffd, 0xa]),
  ([0x8e], [0xfffd, 0xa]), ([0x8f], [0xfffd, 0xa]), ([0x90], [0xfffd, 0xa]), ([0x91], [0xfffd, 0xa]), ([0x92], [0xfffd, 0xa]),
  ([0x93], [0xfffd, 0xa]), ([0x94], [0xfffd, 0xa]), ([0x95], [0xfffd, 0xa]), ([0x96], [0xfffd, 0xa]), ([0x97], [0xfffd, 0xa]),
  ([0x98], [0xfffd, 0xa]), ([0x99], [0xfffd, 0xa]), ([0x9a], [0xfffd, 0xa]), ([0x9b], [0xfffd, 0xa]), ([0x9c], [0xfffd, 0xa]),
  ([0x9d], [0xfffd, 0xa]), ([0x9e], [0xfffd, 0xa]), ([0x9f], [0xfffd, 0xa]), ([0x9e4], [0xfffd, 0xa]), ([0x9e5], [0xfffd, 0xa]),
  ([0xa64], [0xfffd, 0xa]), ([0xa65], [0xfffd, 0xa]), ([0xae4], [0xfffd, 0xa]), ([0xae5], [0xfffd, 0xa]), ([0xb64], [0xfffd, 0xa]),
  ([0xb65], [0xfffd, 0xa]), ([0xbe4], [0xfffd, 0xa])]

def readTests2 : List (List Nat × List Nat) := [
  ([0xbe5], [0xfffd, 0xa]), ([0xc64], [0xfffd, 0xa]), ([0xc65], [0xfffd, 0xa]), ([0xce4], [0xfffd, 0xa]), ([0xce5], [0xfffd, 0xa]),
  ([0xd64], [0xfffd, 0xa]), ([0xd65], [0xfffd, 0xa]), ([0x17b4], [0xfffd, 0xa]), ([0x17b5], [0xfffd, 0xa]), ([0x17d8], [0xfffd, 0xa]),
  ([0x202a], [0xfffd, 0xa]), ([0x202b], [0xfffd, 0xa]), ([0x202c], [0xfffd, 0xa]), ([0x202d], [0xfffd, 0xa]), ([0x202e], [0xfffd, 0xa]),
  ([0x2066], [0xfffd, 0xa]), ([0x2067], [0xfffd, 0xa]), ([0x2068], [0xfffd, 0xa]), ([0x2069], [0xfffd, 0xa]), ([0x206a], [0xfffd, 0xa]),
  ([0x206b], [0xfffd, 0xa]), ([0x206c], [0xfffd, 0xa]), ([0x206d], [0xfffd, 0xa]), ([0x206e], [0xfffd, 0xa]), ([0x206f], [0xfffd, 0xa]),
  ([0x2072], [0xfffd, 0xa]), ([0x2073], [0xfffd, 0xa]), ([0xfff9], [0xfffd, 0xa]), ([0xfffa], [0xfffd, 0xa]), ([0xfffb], [0xfffd, 0xa]),
  ([0xfffc], [0xfffd, 0xa]), ([0xe0001], [0xfffd, 0xa]), ([0xfffe], [0xfffd, 0xa]), ([0xffff], [0xfffd, 0xa]), ([0x1fffe], [0xfffd, 0xa]),
  ([0x1ffff], [0xfffd, 0xa]), ([0x2fffe], [0xfffd, 0xa]), ([0x2ffff], [0xfffd, 0xa]), ([0x3fffe], [0xfffd, 0xa]), ([0x3ffff], [0xfffd, 0xa]),
  ([0x4fffe], [0xfffd, 0xa]), ([0x4ffff], [0xfffd, 0xa]), ([0x5fffe], [0xfffd, 0xa]), ([0x5ffff], [0xfffd, 0xa]), ([0x6fffe], [0xfffd, 0xa]),
  ([0x6ffff], [0xfffd, 0xa]), ([0x7fffe], [0xfffd, 0xa]), ([0x7ffff], [0xfffd, 0xa]), ([0x8fffe], [0xfffd, 0xa]), ([0x8ffff], [0xfffd, 0xa]),
  ([0x9fffe], [0xfffd, 0xa]), ([0x9ffff], [0xfffd, 0xa]), ([0xafffe], [0xfffd, 0xa]), ([0xaffff], [0xfffd, 0xa]), ([0xbfffe], [0xfffd, 0xa]),
  ([0xbffff], [0xfffd, 0xa]), ([0xcfffe], [0xfffd, 0xa]), ([0xcffff], [0xfffd, 0xa]), ([0xdfffe], [0xfffd, 0xa]), ([0xdffff], [0xfffd, 0xa]),
  ([0xefffe], [0xfffd, 0xa]), ([0xeffff], [0xfffd, 0xa]), ([0xffffe], [0xfffd, 0xa]), ([0xfffff], [0xfffd, 0xa]), ([0x10fffe], [0xfffd, 0xa]),
  ([0x10ffff], [0xfffd, 0xa]), ([0xfdd0], [0xfffd, 0xa]), ([0xfdd1], [0xfffd, 0xa]), ([0xfdd2], [0xfffd, 0xa]), ([0xfdd3], [0xfffd, 0xa]),
  ([0xfdd4], [0xfffd, 0xa]), ([0xfdd5], [0xfffd, 0xa]), ([0xfdd6], [0xfffd, 0xa]), ([0xfdd7], [0xfffd, 0xa]), ([0xfdd8], [0xfffd, 0xa]),
  ([0xfdd9], [0xfffd, 0xa]), ([0xfdda], [0xfffd, 0xa]), ([0xfddb], [0xfffd, 0xa]), ([0xfddc], [0xfffd, 0xa]), ([0xfddd], [0xfffd, 0xa]),
  ([0xfdde], [0xfffd, 0xa]), ([0xfddf], [0xfffd, 0xa]), ([0xfde0], [0xfffd, 0xa]), ([0xfde1], [0xfffd, 0xa]), ([0xfde2], [0xfffd, 0xa]),
  ([0xfde3], [0xfffd, 0xa]), ([0xfde4], [0xfffd, 0xa]), ([0xfde5], [0xfffd, 0xa]), ([0xfde6], [0xfffd, 0xa]), ([0xfde7], [0xfffd, 0xa]),
  ([0xfde8], [0xfffd, 0xa]), ([0xfde9], [0xfffd, 0xa]), ([0xfdea], [0xfffd, 0xa]), ([0xfdeb], [0xfffd, 0xa]), ([0xfdec], [0xfffd, 0xa]),
  ([0xfded], [0xfffd, 0xa]), ([0xfdee], [0xfffd, 0xa]), ([0xfdef], [0xfffd, 0xa]), ([0x1d455], [0xfffd, 0xa]), ([0x1d49d], [0xfffd, 0xa])]

def readTests3 : List (List Nat × List Nat) := [
  ([0x1d4a0], [0xfffd, 0xa]), ([0x1d4a1], [0xfffd, 0xa]), ([0x1d4a3], [0xfffd, 0xa]), ([0x1d4a4], [0xfffd, 0xa]), ([0x1d4a7], [0xfffd, 0xa]),
  ([0x1d4a8], [0xfffd, 0xa]), ([0x1d4ad], [0xfffd, 0xa]), ([0x1d4ba], [0xfffd, 0xa]), ([0x1d4bc], [0xfffd, 0xa]), ([0x1d4c4], [0xfffd, 0xa]),
  ([0x1d506], [0xfffd, 0xa]), ([0x1d50b], [0xfffd, 0xa]), ([0x1d50c], [0xfffd, 0xa]), ([0x1d515], [0xfffd, 0xa]), ([0x1d51d], [0xfffd, 0xa]),
  ([0x1d53a], [0xfffd, 0xa]), ([0x1d53f], [0xfffd, 0xa]), ([0x1d545], [0xfffd, 0xa]), ([0x1d547], [0xfffd, 0xa]), ([0x1d548], [0xfffd, 0xa]),
  ([0x1d549], [0xfffd, 0xa]), ([0x1d551], [0xfffd, 0xa])]

def readTests : List (List Nat × List Nat) := readTests0 ++ readTests1 ++ readTests2 ++ readTests3

def readNelTests : List (List Nat × List Nat) := [
  ([0x68, 0x65, 0x6c, 0x6c, 0x6f, 0x85, 0x77, 0x6f, 0x72, 0x6c, 0x64], [0x68, 0x65, 0x6c, 0x6c, 0x6f, 0xa, 0x77, 0x6f, 0x72, 0x6c, 0x64, 0xa]),
  ([0x85, 0x68, 0x65, 0x6c, 0x6c, 0x6f, 0x20, 0x77, 0x6f, 0x72, 0x6c, 0x64, 0x85], [0xa, 0x68, 0x65, 0x6c, 0x6c, 0x6f, 0x20, 0x77, 0x6f, 0x72, 0x6c, 0x64, 0xa])]

def readLspsTests : List (List Nat × List Nat) := [
  ([0x68, 0x65, 0x6c, 0x6c, 0x6f, 0x2028, 0x77, 0x6f, 0x72, 0x6c, 0x64], [0x68, 0x65, 0x6c, 0x6c, 0x6f, 0xa, 0x77, 0x6f, 0x72, 0x6c, 0x64, 0xa]),
  ([0x68, 0x65, 0x6c, 0x6c, 0x6f, 0x2029, 0x77, 0x6f, 0x72, 0x6c, 0x64], [0x68, 0x65, 0x6c, 0x6c, 0x6f, 0xa, 0x77, 0x6f, 0x72, 0x6c, 0x64, 0xa]),
  ([0x2028, 0x68, 0x65, 0x6c, 0x6c, 0x6f, 0x20, 0x77, 0x6f, 0x72, 0x6c, 0x64, 0x2028], [0xa, 0x68, 0x65, 0x6c, 0x6c, 0x6f, 0x20, 0x77, 0x6f, 0x72, 0x6c, 0x64, 0xa]),
  ([0x2029, 0x68, 0x65, 0x6c, 0x6c, 0x6f, 0x20, 0x77, 0x6f, 0x72, 0x6c, 0x64, 0x2029], [0xa, 0x68, 0x65, 0x6c, 0x6c, 0x6f, 0x20, 0x77, 0x6f, 0x72, 0x6c, 0x64, 0xa])]

def lossyTests0 : List (List Nat × List Nat) := [
  ([0x34f, 0x200c, 0x200d, 0x2060], [0x34f, 0x200c, 0x200d, 0x2060]), ([0x200c, 0x200d, 0x2060], [0x34f, 0x200c, 0x200d, 0x2060]),
  ([0x200d], [0x34f, 0x200d, 0x34f]),
  ([0x68, 0x65, 0x6c, 0x6c, 0x6f, 0xc, 0x77, 0x6f, 0x72, 0x6c, 0x64], [0x68, 0x65, 0x6c, 0x6c, 0x6f, 0x20, 0x77, 0x6f, 0x72, 0x6c, 0x64]),
  ([0x68, 0x65, 0x6c, 0x6c, 0x6f, 0xc, 0xc, 0x77, 0x6f, 0x72, 0x6c, 0x64], [0x68, 0x65, 0x6c, 0x6c, 0x6f, 0x20, 0x77, 0x6f, 0x72, 0x6c, 0x64]),
  ([0xc], [0x20]), ([0xc, 0xc], [0x20]), ([0xc, 0xa], [0xa]), ([0xc, 0xd], [0xa]), ([0xc, 0xd, 0xa], [0xa]), ([0xc, 0xc, 0xa], [0xa]),
  ([0xc, 0xc, 0xd], [0xa]), ([0xc, 0xc, 0xd, 0xa], [0xa]), ([0xd, 0xc, 0xa], [0xa, 0xa]), ([0xd, 0xc, 0xc, 0xa], [0xa, 0xa]),
  ([0xd, 0xc, 0xd, 0xa], [0xa, 0xa]), ([0xd, 0xc, 0xc, 0xd, 0xa], [0xa, 0xa]), ([0xd, 0xc, 0xd], [0xa, 0xa]), ([0xd, 0xc, 0xc, 0xd], [0xa, 0xa]),
  ([0xa, 0xc, 0xa], [0xa, 0xa]), ([0xa, 0xc, 0xc, 0xa], [0xa, 0xa]), ([0xa, 0xc, 0xd, 0xa], [0xa, 0xa]), ([0xa, 0xc, 0xc, 0xd, 0xa], [0xa, 0xa]),
  ([0xa, 0xc, 0xd], [0xa, 0xa]), ([0xa, 0xc, 0xc, 0xd], [0xa, 0xa]), ([0xd, 0xa, 0xc, 0xa], [0xa, 0xa]), ([0xd, 0xa, 0xc, 0xc, 0xa], [0xa, 0xa]),
  ([0xd, 0xa, 0xc, 0xd, 0xa], [0xa, 0xa]), ([0xd, 0xa, 0xc, 0xc, 0xd, 0xa], [0xa, 0xa]), ([0xd, 0xa, 0xc, 0xd], [0xa, 0xa]),
  ([0xd, 0xa, 0xc, 0xc, 0xd], [0xa, 0xa]), ([0x378], [0x34f, 0x378, 0x34f]), ([0x378, 0x378], [0x34f, 0x378, 0x34f, 0x378, 0x34f]),
  ([0x34f, 0x378, 0x34f], [0x34f, 0x378, 0x34f]), ([0x34f, 0x378, 0x34f, 0x378, 0x34f], [0x34f, 0x378, 0x34f, 0x378, 0x34f]), ([0xfffff], [0xfffd]),
  ([0xfffff, 0xfffff], [0xfffd, 0xfffd]), ([0x34f, 0xfffff, 0x34f], [0x34f, 0xfffd, 0x34f]),
  ([0x34f, 0xfffff, 0x34f, 0xfffff, 0x34f], [0x34f, 0xfffd, 0x34f, 0xfffd, 0x34f]),
  ([0x41, 0xbba4, 0x24, 0xa8e4, 0x3c, 0xa8c4, 0xa8c4, 0xa8c4, 0xa8c4, 0xa8c4, 0xa8e4, 0xa8e4, 0xa8e4, 0xa8e4, 0xa8e4, 0xa8e4, 0xa8e4, 0xa8e4, 0xa8e4, 0xa8e4, 0xa8e4, 0xa8e4, 0xa8e4, 0xa8e4, 0xa8e4, 0xa8e4, 0xa8c4, 0xa8e4, 0xa8e4, 0xa8e4, 0xa8c4, 0xa8e4, 0xa8e4, 0xa8e4, 0xa8e4, 0xa8c4, 0xa8e4, 0xa8e4, 0xa8e4, 0xa8e4, 0x5a], [0x41, 0xbba4, 0x24, 0xa8e4, 0x3c, 0xa8c4, 0xa8c4, 0xa8c4, 0xa8c4, 0xa8c4, 0xa8c4, 0xa8c4, 0xa8e4, 0xa8e4, 0xa8e4, 0xa8e4, 0xa8e4, 0xa8e4, 0xa8e4, 0xa8e4, 0xa8e4, 0xa8e4, 0xa8e4, 0xa8e4, 0xa8e4, 0xa8e4, 0xa8e4, 0xa8e4, 0xa8e4, 0xa8e4, 0xa8e4, 0xa8e4, 0xa8e4, 0xa8e4, 0xa8e4, 0x34f, 0xa8c4, 0xa8e4, 0xa8e4, 0xa8e4, 0xa8e4, 0x5a]),
  ([0x41, 0xa8e1, 0x324, 0xa8c4, 0xa8e4, 0xa8e4, 0xa8e4, 0xa8e4, 0xa8e4, 0xa8e1, 0x324, 0xa8c4, 0xa8e4, 0xa8e4, 0xa8e4, 0xa8c4, 0xa8e4, 0xa8e4, 0xa8c4, 0xa8e1, 0x324, 0xa8c4, 0xa8e4, 0xa8e4, 0xa8e4, 0xa8e4, 0xa8e1, 0x32e, 0xa8e4, 0xa8e1, 0x324, 0xa8c4, 0xa924, 0xac24, 0x5a], [0x41, 0xa8c4, 0xa8c4, 0xa8c4, 0xa8c4, 0xa8c4, 0x324, 0x324, 0x324, 0x32e, 0x324, 0xa8e1, 0xa8e4, 0xa8e4, 0xa8e4, 0xa8e4, 0xa8e4, 0xa8e1, 0xa8e4, 0xa8e4, 0xa8e4, 0xa8e4, 0xa8e4, 0xa8e1, 0xa8e4, 0xa8e4, 0xa8e4, 0xa8e4, 0xa8e1, 0xa8e4, 0xa8e1, 0x34f, 0xa8c4, 0xa924, 0xac24, 0x5a]),
  ([0x41, 0xa8e1, 0x324, 0xa8c4, 0xa8e4, 0xa8e4, 0xa8e4, 0xa8e4, 0xa8e1, 0x32e, 0xa8e4, 0xa8e1, 0x324, 0xa8c4, 0xa8e4, 0xa8e4, 0xa8e4, 0xa8c4, 0xa8e4, 0xa8e4, 0xa8c4, 0xa8e1, 0x324, 0xa8c4, 0xa8e4, 0xa8e4, 0xa8e4, 0xa8e4, 0xa8e1, 0x32e, 0xa8e4, 0xa8e1, 0x324, 0xa8c4, 0xa924, 0xac24, 0x5a], [0x41, 0xa8c4, 0xa8c4, 0xa8c4, 0xa8c4, 0xa8c4, 0x324, 0x32e, 0x324, 0x324, 0x32e, 0xa8e1, 0xa8e4, 0xa8e4, 0xa8e4, 0xa8e4, 0xa8e1, 0xa8e4, 0xa8e1, 0xa8e4, 0xa8e4, 0xa8e4, 0xa8e4, 0xa8e4, 0xa8e1, 0xa8e4, 0xa8e4, 0xa8e4, 0xa8e4, 0xa8e1, 0xa8e4, 0x34f, 0xa8c4, 0x324, 0xa8e1, 0xa924, 0xac24, 0x5a]),
  ([0x327, 0x68, 0x65, 0x6c, 0x6c, 0x6f], [0x34f, 0x327, 0x68, 0x65, 0x6c, 0x6c, 0x6f]),
  ([0x68, 0x65, 0x6c, 0x6c, 0x6f, 0x327, 0x77, 0x6f, 0x72, 0x6c, 0x64], [0x68, 0x65, 0x6c, 0x6c, 0x6f, 0x327, 0x77, 0x6f, 0x72, 0x6c, 0x64]),
  ([0x200d, 0x68, 0x65, 0x6c, 0x6c, 0x6f], [0x34f, 0x200d, 0x68, 0x65, 0x6c, 0x6c, 0x6f]),
  ([0x68, 0x65, 0x6c, 0x6c, 0x6f, 0x200d, 0x77, 0x6f, 0x72, 0x6c, 0x64], [0x68, 0x65, 0x6c, 0x6c, 0x6f, 0x200d, 0x77, 0x6f, 0x72, 0x6c, 0x64]),
  ([0x903, 0x68, 0x65, 0x6c, 0x6c, 0x6f], [0x34f, 0x903, 0x68, 0x65, 0x6c, 0x6c, 0x6f]),
  ([0x68, 0x65, 0x6c, 0x6c, 0x6f, 0x903, 0x77, 0x6f, 0x72, 0x6c, 0x64], [0x68, 0x65, 0x6c, 0x6c, 0x6f, 0x903, 0x77, 0x6f, 0x72, 0x6c, 0x64]),
  ([0x9be, 0x68, 0x65, 0x6c, 0x6c, 0x6f], [0x34f, 0x9be, 0x68, 0x65, 0x6c, 0x6c, 0x6f]),
  ([0x68, 0x65, 0x6c, 0x6c, 0x6f, 0x9be, 0x77, 0x6f, 0x72, 0x6c, 0x64], [0x68, 0x65, 0x6c, 0x6c, 0x6f, 0x9be, 0x77, 0x6f, 0x72, 0x6c, 0x64]),
  ([0x68, 0x65, 0x6c, 0x6c, 0x6f, 0x200d], [0x68, 0x65, 0x6c, 0x6c, 0x6f, 0x200d, 0x34f]),
  ([0x68, 0x65, 0x6c, 0x6c, 0x6f, 0x200d, 0x77, 0x6f, 0x72, 0x6c, 0x64], [0x68, 0x65, 0x6c, 0x6c, 0x6f, 0x200d, 0x77, 0x6f, 0x72, 0x6c, 0x64]),
  ([0x68, 0x65, 0x6c, 0x6c, 0x6f, 0x110bd], [0x68, 0x65, 0x6c, 0x6c, 0x6f, 0x110bd, 0x34f]),
  ([0x68, 0x65, 0x6c, 0x6c, 0x6f, 0x110bd, 0x77, 0x6f, 0x72, 0x6c, 0x64], [0x68, 0x65, 0x6c, 0x6c, 0x6f, 0x110bd, 0x77, 0x6f, 0x72, 0x6c, 0x64]),
  ([0x9e4], [0xfffd]), ([0x9e5], [0xfffd]), ([0xa64], [0xfffd]), ([0xa65], [0xfffd]), ([0xae4], [0xfffd]), ([0xae5], [0xfffd]), ([0xb64], [0xfffd]),
  ([0xb65], [0xfffd]), ([0xbe4], [0xfffd]), ([0xbe5], [0xfffd]), ([0xc64], [0xfffd]), ([0xc65], [0xfffd]), ([0xce4], [0xfffd]), ([0xce5], [0xfffd]),
  ([0xd64], [0xfffd]), ([0xd65], [0xfffd]), ([0x2072], [0xfffd]), ([0x2073], [0xfffd]), ([0x2126], [0x3a9]), ([0x212a], [0x4b]), ([0x212b], [0xc5]),
  ([0x2329], [0xfffd]), ([0x232a], [0xfffd]), ([0xfb00], [0x66, 0x66]), ([0xfb01], [0x66, 0x69]), ([0xfb02], [0x66, 0x6c]),
  ([0xfb03], [0x66, 0x66, 0x69]), ([0xfb04], [0x66, 0x66, 0x6c]), ([0xfb05], [0x17f, 0x74]), ([0xfb06], [0x73, 0x74]), ([0x1d455], [0xfffd]),
  ([0x1d49d], [0xfffd]), ([0x1d4a0], [0xfffd]), ([0x1d4a1], [0xfffd]), ([0x1d4a3], [0xfffd]), ([0x1d4a4], [0xfffd]), ([0x1d4a7], [0xfffd]),
  ([0x1d4a8], [0xfffd]), ([0x1d4ad], [0xfffd]), ([0x1d4ba], [0xfffd]), ([0x1d4bc], [0xfffd]), ([0x1d4c4], [0xfffd]), ([0x1d506], [0xfffd]),
  ([0x1d50b], [0xfffd]), ([0x1d50c], [0xfffd]), ([0x1d515], [0xfffd])]

def lossyTests1 : List (List Nat × List Nat) := [
  ([0x1d51d], [0xfffd]), ([0x1d53a], [0xfffd]), ([0x1d53f], [0xfffd]), ([0x1d545], [0xfffd]), ([0x1d547], [0xfffd]), ([0x1d548], [0xfffd]),
  ([0x1d549], [0xfffd]), ([0x1d551], [0xfffd]), ([0xd, 0xa], [0xa]), ([0xd], [0xa]), ([0xd, 0xd], [0xa, 0xa]), ([0xc], [0x20]), ([0x1b, 0x5b], []),
  ([0x1b, 0x5b, 0x41], []), ([0x1b, 0x5b, 0x41, 0x42], [0x42]), ([0x1b, 0x5b, 0x2b], []), ([0x1b, 0x5b, 0x2b, 0x41], []),
  ([0x1b, 0x5b, 0x2b, 0x41, 0x42], [0x42]), ([0x1b, 0x5b, 0x2b, 0x2b], []), ([0x1b, 0x5b, 0x2b, 0x2b, 0x41], []),
  ([0x1b, 0x5b, 0x2b, 0x2b, 0x41, 0x42], [0x42]), ([0x1b, 0x5b, 0x18, 0x41], [0x41]), ([0x1b, 0x5b, 0x1b, 0x41, 0x42], [0x42]),
  ([0x1b, 0x5d, 7], []), ([0x1b, 0x5d, 0x18], []), ([0x1b, 0x5d, 0x41, 7], []), ([0x1b, 0x5d, 0x41, 0x18], []),
  ([0x1b, 0x5d, 0x41, 0x1b, 0x5b, 0x42, 0x43], [0x43]), ([0x1b, 0x5d, 0x41, 0x1b, 0x5d, 0x43, 0x44, 7, 0x45], [0x45]),
  ([0x1b, 0x5d, 0x41, 0xa, 9, 0x42, 0x104c, 7], []), ([0x1b, 0x5d, 0x41, 0xa, 9, 0x42, 0x104c, 0x18], []), ([0x1b, 0x5d, 0x18], []),
  ([0x1b, 0x5d, 0x41, 0x18], []), ([0x1b, 0x5d, 0x41, 0xa, 9, 0x42, 0x104c, 0x18], []), ([0x1b, 0x41], []), ([0x1b, 0x18], []),
  ([0x1b, 0x1b, 0x41], []), ([0x1b, 0x41, 0xa], [0xa]), ([0x1b, 9], [9]), ([0x1b, 0xa], [0xa]), ([0x1b, 0x5b, 0x5b], []),
  ([0x1b, 0x5b, 0x5b, 0x41], []), ([0x1b, 0x5b, 0x5b, 0], []), ([0x1b, 0x5b, 0x5b, 0x7f], []), ([0x1b, 0x5b, 0x5b, 0xa], [0xa]),
  ([0x1b, 0x5b, 0x5b, 0x41, 0xa], [0xa]), ([0x1b, 0x5b, 0x5b, 0x18], []), ([0x1b, 0x5b, 0x5b, 7], []), ([0x1b, 0x5b, 0x5b, 0x1b, 0x41], [0x41]),
  ([0x1b], []), ([0x1b, 0xa], [0xa]), ([0x7f], [0xfffd]), ([0x85], [0x20]), ([0x80], [0xfffd]), ([0x81], [0xfffd]), ([0x82], [0xfffd]),
  ([0x83], [0xfffd]), ([0x84], [0xfffd]), ([0x86], [0xfffd]), ([0x87], [0xfffd]), ([0x88], [0xfffd]), ([0x89], [0xfffd]), ([0x8a], [0xfffd]),
  ([0x8b], [0xfffd]), ([0x8c], [0xfffd]), ([0x8d], [0xfffd]), ([0x8e], [0xfffd]), ([0x8f], [0xfffd]), ([0x90], [0xfffd]), ([0x91], [0xfffd]),
  ([0x92], [0xfffd]), ([0x93], [0xfffd]), ([0x94], [0xfffd]), ([0x95], [0xfffd]), ([0x96], [0xfffd]), ([0x97], [0xfffd]), ([0x98], [0xfffd]),
  ([0x99], [0xfffd]), ([0x9a], [0xfffd]), ([0x9b], [0xfffd]), ([0x9c], [0xfffd]), ([0x9d], [0xfffd]), ([0x9e], [0xfffd]), ([0x9f], [0xfffd]),
  ([0x149], [0x2bc, 0x6e]), ([0x673], [0x627, 0x65f]), ([0xf77], [0x34f, 0xfb2, 0xf71, 0xf80]), ([0x41, 0xf77], [0x41, 0xfb2, 0xf71, 0xf80]),
  ([0xf79], [0x34f, 0xfb3, 0xf71, 0xf80]), ([0x41, 0xf79], [0x41, 0xfb3, 0xf71, 0xf80]), ([0x17a3], [0x17a2]), ([0x17a4], [0x17a2, 0x17b6]),
  ([0x17b4], [0xfffd]), ([0x17b5], [0xfffd]), ([0x17d8], [0xfffd]), ([0x2028], [0x20]), ([0x2029], [0x20]), ([0x202a], [0xfffd]),
  ([0x202b], [0xfffd]), ([0x202c], [0xfffd])]

def lossyTests2 : List (List Nat × List Nat) := [
  ([0x202d], [0xfffd]), ([0x202e], [0xfffd]), ([0x2066], [0xfffd]), ([0x2067], [0xfffd]), ([0x2068], [0xfffd]), ([0x2069], [0xfffd]),
  ([0x206a], [0xfffd]), ([0x206b], [0xfffd]), ([0x206b], [0xfffd]), ([0x206c], [0xfffd]), ([0x206d], [0xfffd]), ([0x206e], [0xfffd]),
  ([0x206f], [0xfffd]), ([0x2df5], [0x34f, 0x2ded, 0x2dee]), ([0x41, 0x2df5], [0x41, 0x2ded, 0x2dee]), ([0x111c4], [0x1118f, 0x11180]),
  ([0xfdd0], [0xfffd]), ([0xfdd1], [0xfffd]), ([0xfdd2], [0xfffd]), ([0xfdd3], [0xfffd]), ([0xfdd4], [0xfffd]), ([0xfdd5], [0xfffd]),
  ([0xfdd6], [0xfffd]), ([0xfdd7], [0xfffd]), ([0xfdd8], [0xfffd]), ([0xfdd9], [0xfffd]), ([0xfdda], [0xfffd]), ([0xfddb], [0xfffd]),
  ([0xfddc], [0xfffd]), ([0xfddd], [0xfffd]), ([0xfdde], [0xfffd]), ([0xfddf], [0xfffd]), ([0xfde0], [0xfffd]), ([0xfde1], [0xfffd]),
  ([0xfde2], [0xfffd]), ([0xfde3], [0xfffd]), ([0xfde4], [0xfffd]), ([0xfde5], [0xfffd]), ([0xfde6], [0xfffd]), ([0xfde7], [0xfffd]),
  ([0xfde8], [0xfffd]), ([0xfde9], [0xfffd]), ([0xfdea], [0xfffd]), ([0xfdeb], [0xfffd]), ([0xfdec], [0xfffd]), ([0xfded], [0xfffd]),
  ([0xfdee], [0xfffd]), ([0xfdef], [0xfffd]), ([0xfeff], [0x2060]), ([0x41, 0xfeff], [0x41, 0x2060]), ([0xfff9], [0xfffd]), ([0xfffa], [0xfffd]),
  ([0xfffb], [0xfffd]), ([0xfffc], [0xfffd]), ([0xfffd], [0xfffd]), ([0xfffe], [0xfffd]), ([0xffff], [0xfffd]), ([0x1fffe], [0xfffd]),
  ([0x1ffff], [0xfffd]), ([0x2fffe], [0xfffd]), ([0x2ffff], [0xfffd]), ([0x3fffe], [0xfffd]), ([0x3ffff], [0xfffd]), ([0x4fffe], [0xfffd]),
  ([0x4ffff], [0xfffd]), ([0x5fffe], [0xfffd]), ([0x5ffff], [0xfffd]), ([0x6fffe], [0xfffd]), ([0x6ffff], [0xfffd]), ([0x7fffe], [0xfffd]),
  ([0x7ffff], [0xfffd]), ([0x8fffe], [0xfffd]), ([0x8ffff], [0xfffd]), ([0x9fffe], [0xfffd]), ([0x9ffff], [0xfffd]), ([0xafffe], [0xfffd]),
  ([0xaffff], [0xfffd]), ([0xbfffe], [0xfffd]), ([0xbffff], [0xfffd]), ([0xcfffe], [0xfffd]), ([0xcffff], [0xfffd]), ([0xdfffe], [0xfffd]),
  ([0xdffff], [0xfffd]), ([0xefffe], [0xfffd]), ([0xeffff], [0xfffd]), ([0xffffe], [0xfffd]), ([0xfffff], [0xfffd]), ([0x10fffe], [0xfffd]),
  ([0x10ffff], [0xfffd]), ([0x2f80c], [0x349e, 0xfe00]), ([0x2f813], [0x34b9, 0xfe00]), ([0x2f9ca], [0x34bb, 0xfe00]), ([0x2f81f], [0x34df, 0xfe00]),
  ([0x2f824], [0x3515, 0xfe00]), ([0x2f867], [0x36ee, 0xfe00]), ([0x2f868], [0x36fc, 0xfe00]), ([0x2f876], [0x3781, 0xfe00]),
  ([0x2f883], [0x382f, 0xfe00]), ([0x2f888], [0x3862, 0xfe00]), ([0x2f88a], [0x387c, 0xfe00])]

def lossyTests3 : List (List Nat × List Nat) := [
  ([0x2f896], [0x38c7, 0xfe00]), ([0x2f89b], [0x38e3, 0xfe00]), ([0x2f8a2], [0x391c, 0xfe00]), ([0x2f8a1], [0x393a, 0xfe00]),
  ([0x2f8c2], [0x3a2e, 0xfe00]), ([0x2f8c7], [0x3a6c, 0xfe00]), ([0x2f8d1], [0x3ae4, 0xfe00]), ([0x2f8d0], [0x3b08, 0xfe00]),
  ([0x2f8ce], [0x3b19, 0xfe00]), ([0x2f8de], [0x3b49, 0xfe00]), ([0xfad2], [0x3b9d, 0xfe00]), ([0x2f8e7], [0x3b9d, 0xfe01]),
  ([0x2f8ee], [0x3c18, 0xfe00]), ([0x2f8f2], [0x3c4e, 0xfe00]), ([0x2f90a], [0x3d33, 0xfe00]), ([0x2f916], [0x3d96, 0xfe00]),
  ([0x2f92a], [0x3eac, 0xfe00]), ([0x2f92c], [0x3eb8, 0xfe00]), ([0x2f92d], [0x3eb8, 0xfe01]), ([0x2f933], [0x3f1b, 0xfe00]),
  ([0x2f93e], [0x3ffc, 0xfe00]), ([0x2f93f], [0x4008, 0xfe00]), ([0xfad3], [0x4018, 0xfe00]), ([0xfad4], [0x4039, 0xfe00]),
  ([0x2f949], [0x4039, 0xfe01]), ([0x2f94b], [0x4046, 0xfe00]), ([0x2f94c], [0x4096, 0xfe00]), ([0x2f951], [0x40e3, 0xfe00]),
  ([0x2f958], [0x412f, 0xfe00]), ([0x2f960], [0x4202, 0xfe00]), ([0x2f964], [0x4227, 0xfe00]), ([0x2f967], [0x42a0, 0xfe00]),
  ([0x2f96d], [0x4301, 0xfe00]), ([0x2f971], [0x4334, 0xfe00]), ([0x2f974], [0x4359, 0xfe00]), ([0x2f981], [0x43d5, 0xfe00]),
  ([0x2f8d7], [0x43d9, 0xfe00]), ([0x2f984], [0x440b, 0xfe00]), ([0x2f98e], [0x446b, 0xfe00]), ([0x2f9a7], [0x452b, 0xfe00]),
  ([0x2f9ae], [0x455d, 0xfe00]), ([0x2f9af], [0x4561, 0xfe00]), ([0x2f9b2], [0x456b, 0xfe00]), ([0x2f9bf], [0x45d7, 0xfe00]),
  ([0x2f9c2], [0x45f9, 0xfe00]), ([0x2f9c8], [0x4635, 0xfe00]), ([0x2f9cd], [0x46be, 0xfe00]), ([0x2f9ce], [0x46c7, 0xfe00]),
  ([0x2f9ef], [0x4995, 0xfe00]), ([0x2f9f2], [0x49e6, 0xfe00]), ([0x2f9f8], [0x4a6e, 0xfe00]), ([0x2f9f9], [0x4a76, 0xfe00]),
  ([0x2f9fc], [0x4ab2, 0xfe00]), ([0x2fa03], [0x4b33, 0xfe00]), ([0x2fa08], [0x4bce, 0xfe00]), ([0x2fa0d], [0x4cce, 0xfe00]),
  ([0x2fa0e], [0x4ced, 0xfe00]), ([0x2fa11], [0x4cf8, 0xfe00]), ([0x2fa16], [0x4d56, 0xfe00]), ([0xf967], [0x4e0d, 0xfe00]),
  ([0xfa70], [0x4e26, 0xfe00]), ([0xf905], [0x4e32, 0xfe00]), ([0x2f801], [0x4e38, 0xfe00]), ([0xf95e], [0x4e39, 0xfe00]),
  ([0x2f800], [0x4e3d, 0xfe00]), ([0x2f802], [0x4e41, 0xfe00]), ([0xf91b], [0x4e82, 0xfe00]), ([0xf9ba], [0x4e86, 0xfe00]),
  ([0xf977], [0x4eae, 0xfe00]), ([0xf9fd], [0x4ec0, 0xfe00]), ([0x2f819], [0x4ecc, 0xfe00]), ([0xf9a8], [0x4ee4, 0xfe00]),
  ([0x2f804], [0x4f60, 0xfe00]), ([0xfa73], [0x4f80, 0xfe00]), ([0xf92d], [0x4f86, 0xfe00]), ([0xf9b5], [0x4f8b, 0xfe00]),
  ([0xfa30], [0x4fae, 0xfe00]), ([0x2f805], [0x4fae, 0xfe01]), ([0x2f806], [0x4fbb, 0xfe00]), ([0xf965], [0x4fbf, 0xfe00]),
  ([0x2f807], [0x5002, 0xfe00]), ([0xf9d4], [0x502b, 0xfe00]), ([0x2f808], [0x507a, 0xfe00]), ([0x2f809], [0x5099, 0xfe00]),
  ([0x2f80b], [0x50cf, 0xfe00]), ([0xf9bb], [0x50da, 0xfe00]), ([0xfa31], [0x50e7, 0xfe00]), ([0x2f80a], [0x50e7, 0xfe01]),
  ([0xfa0c], [0x5140, 0xfe00]), ([0xfa74], [0x5145, 0xfe00]), ([0xfa32], [0x514d, 0xfe00]), ([0x2f80e], [0x514d, 0xfe01]),
  ([0x2f80f], [0x5154, 0xfe00]), ([0x2f810], [0x5164, 0xfe00]), ([0x2f814], [0x5167, 0xfe00]), ([0xfa72], [0x5168, 0xfe00]),
  ([0xf978], [0x5169, 0xfe00]), ([0xf9d1], [0x516d, 0xfe00]), ([0x2f811], [0x5177, 0xfe00]), ([0xfa75], [0x5180, 0xfe00])]

def lossyTests4 : List (List Nat × List Nat) := [
  ([0x2f815], [0x518d, 0xfe00]), ([0x2f8d2], [0x5192, 0xfe00]), ([0x2f8d3], [0x5195, 0xfe00]), ([0x2f817], [0x5197, 0xfe00]),
  ([0x2f818], [0x51a4, 0xfe00]), ([0x2f81a], [0x51ac, 0xfe00]), ([0xfa71], [0x51b5, 0xfe00]), ([0x2f81b], [0x51b5, 0xfe01]),
  ([0xf92e], [0x51b7, 0xfe00]), ([0xf979], [0x51c9, 0xfe00]), ([0xf955], [0x51cc, 0xfe00]), ([0xf954], [0x51dc, 0xfe00]),
  ([0xfa15], [0x51de, 0xfe00]), ([0x2f81d], [0x51f5, 0xfe00]), ([0x2f81e], [0x5203, 0xfe00]), ([0xfa00], [0x5207, 0xfe00]),
  ([0x2f850], [0x5207, 0xfe01]), ([0xf99c], [0x5217, 0xfe00]), ([0xf9dd], [0x5229, 0xfe00]), ([0xf9ff], [0x523a, 0xfe00]),
  ([0x2f820], [0x523b, 0xfe00]), ([0x2f821], [0x5246, 0xfe00]), ([0x2f822], [0x5272, 0xfe00]), ([0x2f823], [0x5277, 0xfe00]),
  ([0xf9c7], [0x5289, 0xfe00]), ([0xf98a], [0x529b, 0xfe00]), ([0xf99d], [0x52a3, 0xfe00]), ([0x2f992], [0x52b3, 0xfe00]),
  ([0xfa76], [0x52c7, 0xfe00]), ([0x2f825], [0x52c7, 0xfe01]), ([0xfa33], [0x52c9, 0xfe00]), ([0x2f826], [0x52c9, 0xfe01]),
  ([0xf952], [0x52d2, 0xfe00]), ([0xf92f], [0x52de, 0xfe00]), ([0xfa34], [0x52e4, 0xfe00]), ([0x2f827], [0x52e4, 0xfe01]),
  ([0xf97f], [0x52f5, 0xfe00]), ([0xfa77], [0x52fa, 0xfe00]), ([0x2f828], [0x52fa, 0xfe01]), ([0x2f829], [0x5305, 0xfe00]),
  ([0x2f82a], [0x5306, 0xfe00]), ([0xf963], [0x5317, 0xfe00]), ([0x2f82b], [0x5317, 0xfe01]), ([0xf9eb], [0x533f, 0xfe00]),
  ([0x2f82c], [0x5349, 0xfe00]), ([0xfa35], [0x5351, 0xfe00]), ([0x2f82d], [0x5351, 0xfe01]), ([0x2f82e], [0x535a, 0xfe00]),
  ([0x2f82f], [0x5373, 0xfe00]), ([0xf91c], [0x5375, 0xfe00]), ([0x2f830], [0x537d, 0xfe00]), ([0x2f831], [0x537f, 0xfe00]),
  ([0x2f832], [0x537f, 0xfe01]), ([0x2f833], [0x537f, 0xfe02]), ([0xf96b], [0x53c3, 0xfe00]), ([0x2f836], [0x53ca, 0xfe00]),
  ([0x2f837], [0x53df, 0xfe00]), ([0xf906], [0x53e5, 0xfe00]), ([0x2f839], [0x53eb, 0xfe00]), ([0x2f83a], [0x53f1, 0xfe00]),
  ([0x2f83b], [0x5406, 0xfe00]), ([0xf9de], [0x540f, 0xfe00]), ([0xf9ed], [0x541d, 0xfe00]), ([0x2f83d], [0x5438, 0xfe00]),
  ([0xf980], [0x5442, 0xfe00]), ([0x2f83e], [0x5448, 0xfe00]), ([0x2f83f], [0x5468, 0xfe00]), ([0x2f83c], [0x549e, 0xfe00]),
  ([0x2f840], [0x54a2, 0xfe00]), ([0xf99e], [0x54bd, 0xfe00]), ([0x2f841], [0x54f6, 0xfe00]), ([0x2f842], [0x5510, 0xfe00]),
  ([0x2f843], [0x5553, 0xfe00]), ([0xfa79], [0x5555, 0xfe00]), ([0x2f844], [0x5563, 0xfe00]), ([0x2f845], [0x5584, 0xfe00]),
  ([0x2f846], [0x5584, 0xfe01]), ([0xf90b], [0x5587, 0xfe00]), ([0xfa7a], [0x5599, 0xfe00]), ([0x2f847], [0x5599, 0xfe01]),
  ([0xfa36], [0x559d, 0xfe00]), ([0xfa78], [0x559d, 0xfe01]), ([0x2f848], [0x55ab, 0xfe00]), ([0x2f849], [0x55b3, 0xfe00]),
  ([0xfa0d], [0x55c0, 0xfe00]), ([0x2f84a], [0x55c2, 0xfe00]), ([0xfa7b], [0x55e2, 0xfe00]), ([0xfa37], [0x5606, 0xfe00]),
  ([0x2f84c], [0x5606, 0xfe01]), ([0x2f84e], [0x5651, 0xfe00]), ([0xfa38], [0x5668, 0xfe00]), ([0x2f84f], [0x5674, 0xfe00]),
  ([0xf9a9], [0x56f9, 0xfe00]), ([0x2f84b], [0x5716, 0xfe00]), ([0x2f84d], [0x5717, 0xfe00]), ([0x2f855], [0x578b, 0xfe00]),
  ([0x2f852], [0x57ce, 0xfe00]), ([0x2f853], [0x57f4, 0xfe00]), ([0x2f854], [0x580d, 0xfe00]), ([0x2f857], [0x5831, 0xfe00])]

def lossyTests5 : List (List Nat × List Nat) := [
  ([0x2f856], [0x5832, 0xfe00]), ([0xfa39], [0x5840, 0xfe00]), ([0xfa10], [0x585a, 0xfe00]), ([0xfa7c], [0x585a, 0xfe01]),
  ([0xf96c], [0x585e, 0xfe00]), ([0xfa3a], [0x58a8, 0xfe00]), ([0x2f858], [0x58ac, 0xfe00]), ([0xfa7d], [0x58b3, 0xfe00]),
  ([0xf94a], [0x58d8, 0xfe00]), ([0xf942], [0x58df, 0xfe00]), ([0x2f851], [0x58ee, 0xfe00]), ([0x2f85a], [0x58f2, 0xfe00]),
  ([0x2f85b], [0x58f7, 0xfe00]), ([0x2f85c], [0x5906, 0xfe00]), ([0x2f85d], [0x591a, 0xfe00]), ([0x2f85e], [0x5922, 0xfe00]),
  ([0xfa7e], [0x5944, 0xfe00]), ([0xf90c], [0x5948, 0xfe00]), ([0xf909], [0x5951, 0xfe00]), ([0xfa7f], [0x5954, 0xfe00]),
  ([0x2f85f], [0x5962, 0xfe00]), ([0xf981], [0x5973, 0xfe00]), ([0x2f865], [0x59d8, 0xfe00]), ([0x2f862], [0x59ec, 0xfe00]),
  ([0x2f863], [0x5a1b, 0xfe00]), ([0x2f864], [0x5a27, 0xfe00]), ([0xfa80], [0x5a62, 0xfe00]), ([0x2f866], [0x5a66, 0xfe00]),
  ([0x2f986], [0x5ab5, 0xfe00]), ([0x2f869], [0x5b08, 0xfe00]), ([0xfa81], [0x5b28, 0xfe00]), ([0x2f86a], [0x5b3e, 0xfe00]),
  ([0x2f86b], [0x5b3e, 0xfe01]), ([0xfa04], [0x5b85, 0xfe00]), ([0x2f86d], [0x5bc3, 0xfe00]), ([0x2f86e], [0x5bd8, 0xfe00]),
  ([0xf95f], [0x5be7, 0xfe00]), ([0xf9aa], [0x5be7, 0xfe01]), ([0x2f86f], [0x5be7, 0xfe02]), ([0xf9bc], [0x5bee, 0xfe00]),
  ([0x2f870], [0x5bf3, 0xfe00]), ([0x2f872], [0x5bff, 0xfe00]), ([0x2f873], [0x5c06, 0xfe00]), ([0x2f875], [0x5c22, 0xfe00]),
  ([0xf9bd], [0x5c3f, 0xfe00]), ([0x2f877], [0x5c60, 0xfe00]), ([0xf94b], [0x5c62, 0xfe00]), ([0xfa3b], [0x5c64, 0xfe00]),
  ([0xf9df], [0x5c65, 0xfe00]), ([0xfa3c], [0x5c6e, 0xfe00]), ([0x2f878], [0x5c6e, 0xfe01]), ([0x2f87a], [0x5c8d, 0xfe00]),
  ([0x2f879], [0x5cc0, 0xfe00]), ([0xf9d5], [0x5d19, 0xfe00]), ([0x2f87c], [0x5d43, 0xfe00]), ([0xf921], [0x5d50, 0xfe00]),
  ([0x2f87f], [0x5d6b, 0xfe00]), ([0x2f87e], [0x5d6e, 0xfe00]), ([0x2f880], [0x5d7c, 0xfe00]), ([0x2f9f4], [0x5db2, 0xfe00]),
  ([0xf9ab], [0x5dba, 0xfe00]), ([0x2f881], [0x5de1, 0xfe00]), ([0x2f882], [0x5de2, 0xfe00]), ([0x2f884], [0x5dfd, 0xfe00]),
  ([0x2f885], [0x5e28, 0xfe00]), ([0x2f886], [0x5e3d, 0xfe00]), ([0x2f887], [0x5e69, 0xfe00]), ([0xf98e], [0x5e74, 0xfe00]),
  ([0xfa01], [0x5ea6, 0xfe00]), ([0x2f88b], [0x5eb0, 0xfe00]), ([0x2f88c], [0x5eb3, 0xfe00]), ([0x2f88d], [0x5eb6, 0xfe00]),
  ([0xf9a2], [0x5ec9, 0xfe00]), ([0xf928], [0x5eca, 0xfe00]), ([0x2f88e], [0x5eca, 0xfe01]), ([0xfa82], [0x5ed2, 0xfe00]),
  ([0xfa0b], [0x5ed3, 0xfe00]), ([0xfa83], [0x5ed9, 0xfe00]), ([0xf982], [0x5eec, 0xfe00]), ([0x2f890], [0x5efe, 0xfe00]),
  ([0xf943], [0x5f04, 0xfe00]), ([0x2f894], [0x5f22, 0xfe00]), ([0x2f895], [0x5f22, 0xfe01]), ([0x2f874], [0x5f53, 0xfe00]),
  ([0x2f899], [0x5f62, 0xfe00]), ([0xfa84], [0x5f69, 0xfe00]), ([0x2f89a], [0x5f6b, 0xfe00]), ([0xf9d8], [0x5f8b, 0xfe00]),
  ([0x2f89c], [0x5f9a, 0xfe00]), ([0xf966], [0x5fa9, 0xfe00]), ([0xfa85], [0x5fad, 0xfe00]), ([0x2f89d], [0x5fcd, 0xfe00]),
  ([0x2f89e], [0x5fd7, 0xfe00]), ([0xf9a3], [0x5ff5, 0xfe00]), ([0x2f89f], [0x5ff9, 0xfe00]), ([0xf960], [0x6012, 0xfe00]),
  ([0xf9ac], [0x601c, 0xfe00]), ([0xfa6b], [0x6075, 0xfe00]), ([0x2f8a0], [0x6081, 0xfe00]), ([0xfa3d], [0x6094, 0xfe00])]

def lossyTests6 : List (List Nat × List Nat) := [
  ([0x2f8a3], [0x6094, 0xfe01]), ([0x2f8a5], [0x60c7, 0xfe00]), ([0xfa86], [0x60d8, 0xfe00]), ([0xf9b9], [0x60e1, 0xfe00]),
  ([0xfa88], [0x6108, 0xfe00]), ([0xf9d9], [0x6144, 0xfe00]), ([0x2f8a6], [0x6148, 0xfe00]), ([0x2f8a7], [0x614c, 0xfe00]),
  ([0x2f8a9], [0x614c, 0xfe01]), ([0xfa87], [0x614e, 0xfe00]), ([0x2f8a8], [0x614e, 0xfe01]), ([0xfa8a], [0x6160, 0xfe00]),
  ([0xfa3e], [0x6168, 0xfe00]), ([0x2f8aa], [0x617a, 0xfe00]), ([0xfa3f], [0x618e, 0xfe00]), ([0xfa89], [0x618e, 0xfe01]),
  ([0x2f8ab], [0x618e, 0xfe02]), ([0xf98f], [0x6190, 0xfe00]), ([0x2f8ad], [0x61a4, 0xfe00]), ([0x2f8ae], [0x61af, 0xfe00]),
  ([0x2f8ac], [0x61b2, 0xfe00]), ([0x2f8af], [0x61de, 0xfe00]), ([0xfa40], [0x61f2, 0xfe00]), ([0xfa8b], [0x61f2, 0xfe01]),
  ([0x2f8b0], [0x61f2, 0xfe02]), ([0xf90d], [0x61f6, 0xfe00]), ([0x2f8b1], [0x61f6, 0xfe01]), ([0xf990], [0x6200, 0xfe00]),
  ([0x2f8b2], [0x6210, 0xfe00]), ([0x2f8b3], [0x621b, 0xfe00]), ([0xf9d2], [0x622e, 0xfe00]), ([0xfa8c], [0x6234, 0xfe00]),
  ([0x2f8b4], [0x625d, 0xfe00]), ([0x2f8b5], [0x62b1, 0xfe00]), ([0xf925], [0x62c9, 0xfe00]), ([0xf95b], [0x62cf, 0xfe00]),
  ([0xfa02], [0x62d3, 0xfe00]), ([0x2f8b6], [0x62d4, 0xfe00]), ([0x2f8ba], [0x62fc, 0xfe00]), ([0xf973], [0x62fe, 0xfe00]),
  ([0x2f8b9], [0x633d, 0xfe00]), ([0x2f8b7], [0x6350, 0xfe00]), ([0x2f8bb], [0x6368, 0xfe00]), ([0xf9a4], [0x637b, 0xfe00]),
  ([0x2f8bc], [0x6383, 0xfe00]), ([0xf975], [0x63a0, 0xfe00]), ([0x2f8c1], [0x63a9, 0xfe00]), ([0xfa8d], [0x63c4, 0xfe00]),
  ([0x2f8c0], [0x63c5, 0xfe00]), ([0x2f8bd], [0x63e4, 0xfe00]), ([0xfa8e], [0x641c, 0xfe00]), ([0x2f8bf], [0x6422, 0xfe00]),
  ([0xfa8f], [0x6452, 0xfe00]), ([0x2f8c3], [0x6469, 0xfe00]), ([0x2f8c6], [0x6477, 0xfe00]), ([0x2f8c4], [0x647e, 0xfe00]),
  ([0xf991], [0x649a, 0xfe00]), ([0x2f8c5], [0x649d, 0xfe00]), ([0xf930], [0x64c4, 0xfe00]), ([0xfa41], [0x654f, 0xfe00]),
  ([0x2f8c8], [0x654f, 0xfe01]), ([0xfa90], [0x6556, 0xfe00]), ([0x2f8c9], [0x656c, 0xfe00]), ([0xf969], [0x6578, 0xfe00]),
  ([0xf9be], [0x6599, 0xfe00]), ([0xf983], [0x65c5, 0xfe00]), ([0xfa42], [0x65e2, 0xfe00]), ([0x2f8cb], [0x65e3, 0xfe00]),
  ([0xf9e0], [0x6613, 0xfe00]), ([0x2f8cd], [0x6649, 0xfe00]), ([0xfa12], [0x6674, 0xfe00]), ([0xfa91], [0x6674, 0xfe01]),
  ([0xf9c5], [0x6688, 0xfe00]), ([0xfa43], [0x6691, 0xfe00]), ([0x2f8cf], [0x6691, 0xfe01]), ([0x2f8d5], [0x669c, 0xfe00]),
  ([0xfa06], [0x66b4, 0xfe00]), ([0xf98b], [0x66c6, 0xfe00]), ([0xf901], [0x66f4, 0xfe00]), ([0x2f8cc], [0x66f8, 0xfe00]),
  ([0x2f8d4], [0x6700, 0xfe00]), ([0xf929], [0x6717, 0xfe00]), ([0xfa92], [0x6717, 0xfe01]), ([0x2f8d8], [0x6717, 0xfe02]),
  ([0xfa93], [0x671b, 0xfe00]), ([0x2f8d9], [0x671b, 0xfe01]), ([0x2f8da], [0x6721, 0xfe00]), ([0xf9e1], [0x674e, 0xfe00]),
  ([0x2f8dc], [0x6753, 0xfe00]), ([0xfa94], [0x6756, 0xfe00]), ([0x2f8db], [0x675e, 0xfe00]), ([0xf9c8], [0x677b, 0xfe00]),
  ([0x2f8e0], [0x6785, 0xfe00]), ([0xf9f4], [0x6797, 0xfe00]), ([0xf9c9], [0x67f3, 0xfe00]), ([0x2f8df], [0x67fa, 0xfe00]),
  ([0xf9da], [0x6817, 0xfe00]), ([0x2f8e5], [0x681f, 0xfe00]), ([0x2f8e1], [0x6852, 0xfe00]), ([0xf97a], [0x6881, 0xfe00])]

def lossyTests7 : List (List Nat × List Nat) := [
  ([0xfa44], [0x6885, 0xfe00]), ([0x2f8e2], [0x6885, 0xfe01]), ([0x2f8e4], [0x688e, 0xfe00]), ([0xf9e2], [0x68a8, 0xfe00]),
  ([0x2f8e6], [0x6914, 0xfe00]), ([0x2f8e8], [0x6942, 0xfe00]), ([0x2f8e9], [0x69a3, 0xfe00]), ([0x2f8ea], [0x69ea, 0xfe00]),
  ([0xf914], [0x6a02, 0xfe00]), ([0xf95c], [0x6a02, 0xfe01]), ([0xf9bf], [0x6a02, 0xfe02]), ([0xf94c], [0x6a13, 0xfe00]),
  ([0x2f8eb], [0x6aa8, 0xfe00]), ([0xf931], [0x6ad3, 0xfe00]), ([0x2f8ed], [0x6adb, 0xfe00]), ([0xf91d], [0x6b04, 0xfe00]),
  ([0x2f8ef], [0x6b21, 0xfe00]), ([0x2f8f1], [0x6b54, 0xfe00]), ([0x2f8f3], [0x6b72, 0xfe00]), ([0xf98c], [0x6b77, 0xfe00]),
  ([0xfa95], [0x6b79, 0xfe00]), ([0x2f8f4], [0x6b9f, 0xfe00]), ([0xf9a5], [0x6bae, 0xfe00]), ([0xf970], [0x6bba, 0xfe00]),
  ([0xfa96], [0x6bba, 0xfe01]), ([0x2f8f5], [0x6bba, 0xfe02]), ([0x2f8f6], [0x6bbb, 0xfe00]), ([0x2f8fa], [0x6c4e, 0xfe00]),
  ([0x2f8fe], [0x6c67, 0xfe00]), ([0xf972], [0x6c88, 0xfe00]), ([0x2f8fc], [0x6cbf, 0xfe00]), ([0xf968], [0x6ccc, 0xfe00]),
  ([0x2f8fd], [0x6ccd, 0xfe00]), ([0xf9e3], [0x6ce5, 0xfe00]), ([0x2f8ff], [0x6d16, 0xfe00]), ([0xf915], [0x6d1b, 0xfe00]),
  ([0xfa05], [0x6d1e, 0xfe00]), ([0x2f907], [0x6d34, 0xfe00]), ([0x2f900], [0x6d3e, 0xfe00]), ([0xf9ca], [0x6d41, 0xfe00]),
  ([0xfa97], [0x6d41, 0xfe01]), ([0x2f902], [0x6d41, 0xfe02]), ([0x2f903], [0x6d69, 0xfe00]), ([0xf92a], [0x6d6a, 0xfe00]),
  ([0xfa45], [0x6d77, 0xfe00]), ([0x2f901], [0x6d77, 0xfe01]), ([0x2f904], [0x6d78, 0xfe00]), ([0x2f905], [0x6d85, 0xfe00]),
  ([0xf9f5], [0x6dcb, 0xfe00]), ([0xf94d], [0x6dda, 0xfe00]), ([0xf9d6], [0x6dea, 0xfe00]), ([0x2f90e], [0x6df9, 0xfe00]),
  ([0xfa46], [0x6e1a, 0xfe00]), ([0x2f908], [0x6e2f, 0xfe00]), ([0x2f909], [0x6e6e, 0xfe00]), ([0xf9cb], [0x6e9c, 0xfe00]),
  ([0xf9ec], [0x6eba, 0xfe00]), ([0x2f90c], [0x6ec7, 0xfe00]), ([0xfa99], [0x6ecb, 0xfe00]), ([0x2f90b], [0x6ecb, 0xfe01]),
  ([0xf904], [0x6ed1, 0xfe00]), ([0xfa98], [0x6edb, 0xfe00]), ([0xf94e], [0x6f0f, 0xfe00]), ([0xfa47], [0x6f22, 0xfe00]),
  ([0xfa9a], [0x6f22, 0xfe01]), ([0xf992], [0x6f23, 0xfe00]), ([0x2f90f], [0x6f6e, 0xfe00]), ([0x2f912], [0x6fc6, 0xfe00]),
  ([0xf922], [0x6feb, 0xfe00]), ([0xf984], [0x6ffe, 0xfe00]), ([0x2f915], [0x701b, 0xfe00]), ([0xfa9b], [0x701e, 0xfe00]),
  ([0x2f914], [0x701e, 0xfe01]), ([0x2f913], [0x7039, 0xfe00]), ([0x2f917], [0x704a, 0xfe00]), ([0x2f835], [0x7070, 0xfe00]),
  ([0x2f919], [0x7077, 0xfe00]), ([0x2f918], [0x707d, 0xfe00]), ([0xf9fb], [0x7099, 0xfe00]), ([0x2f91a], [0x70ad, 0xfe00]),
  ([0xf99f], [0x70c8, 0xfe00]), ([0xf916], [0x70d9, 0xfe00]), ([0x2f91c], [0x7145, 0xfe00]), ([0xf993], [0x7149, 0xfe00]),
  ([0xfa48], [0x716e, 0xfe00]), ([0xfa9c], [0x716e, 0xfe01]), ([0x2f91e], [0x719c, 0xfe00]), ([0xf9c0], [0x71ce, 0xfe00]),
  ([0xf9ee], [0x71d0, 0xfe00]), ([0xf932], [0x7210, 0xfe00]), ([0xf91e], [0x721b, 0xfe00]), ([0x2f920], [0x7228, 0xfe00]),
  ([0xfa49], [0x722b, 0xfe00]), ([0xfa9e], [0x7235, 0xfe00]), ([0x2f921], [0x7235, 0xfe01]), ([0x2f922], [0x7250, 0xfe00]),
  ([0xf946], [0x7262, 0xfe00]), ([0x2f924], [0x7280, 0xfe00]), ([0x2f925], [0x7295, 0xfe00]), ([0xfa9f], [0x72af, 0xfe00])]

def lossyTests8 : List (List Nat × List Nat) := [
  ([0xf9fa], [0x72c0, 0xfe00]), ([0xf92b], [0x72fc, 0xfe00]), ([0xfa16], [0x732a, 0xfe00]), ([0xfaa0], [0x732a, 0xfe01]),
  ([0xf9a7], [0x7375, 0xfe00]), ([0x2f928], [0x737a, 0xfe00]), ([0xf961], [0x7387, 0xfe00]), ([0xf9db], [0x7387, 0xfe01]),
  ([0x2f929], [0x738b, 0xfe00]), ([0x2f92b], [0x73a5, 0xfe00]), ([0xf9ad], [0x73b2, 0xfe00]), ([0xf917], [0x73de, 0xfe00]),
  ([0xf9e4], [0x7406, 0xfe00]), ([0xf9cc], [0x7409, 0xfe00]), ([0xfa4a], [0x7422, 0xfe00]), ([0x2f92e], [0x7447, 0xfe00]),
  ([0x2f92f], [0x745c, 0xfe00]), ([0xf9ae], [0x7469, 0xfe00]), ([0xfaa1], [0x7471, 0xfe00]), ([0x2f930], [0x7471, 0xfe01]),
  ([0x2f931], [0x7485, 0xfe00]), ([0xf994], [0x7489, 0xfe00]), ([0xf9ef], [0x7498, 0xfe00]), ([0x2f932], [0x74ca, 0xfe00]),
  ([0xfaa2], [0x7506, 0xfe00]), ([0x2f934], [0x7524, 0xfe00]), ([0xfaa3], [0x753b, 0xfe00]), ([0x2f936], [0x753e, 0xfe00]),
  ([0xf9cd], [0x7559, 0xfe00]), ([0xf976], [0x7565, 0xfe00]), ([0xf962], [0x7570, 0xfe00]), ([0x2f938], [0x7570, 0xfe01]),
  ([0xf9e5], [0x75e2, 0xfe00]), ([0x2f93a], [0x7610, 0xfe00]), ([0xfaa4], [0x761d, 0xfe00]), ([0xfaa5], [0x761f, 0xfe00]),
  ([0xf9c1], [0x7642, 0xfe00]), ([0xf90e], [0x7669, 0xfe00]), ([0xfa17], [0x76ca, 0xfe00]), ([0xfaa6], [0x76ca, 0xfe01]),
  ([0xfaa7], [0x76db, 0xfe00]), ([0xf933], [0x76e7, 0xfe00]), ([0xfaa8], [0x76f4, 0xfe00]), ([0x2f940], [0x76f4, 0xfe01]),
  ([0xf96d], [0x7701, 0xfe00]), ([0x2f945], [0x771e, 0xfe00]), ([0x2f946], [0x771f, 0xfe00]), ([0x2f947], [0x771f, 0xfe01]),
  ([0xfaaa], [0x7740, 0xfe00]), ([0xfaa9], [0x774a, 0xfe00]), ([0x2f948], [0x774a, 0xfe01]), ([0x2f94a], [0x778b, 0xfe00]),
  ([0xfa9d], [0x77a7, 0xfe00]), ([0x2f94e], [0x784e, 0xfe00]), ([0xf9ce], [0x786b, 0xfe00]), ([0xf93b], [0x788c, 0xfe00]),
  ([0x2f94f], [0x788c, 0xfe01]), ([0xfa4b], [0x7891, 0xfe00]), ([0xf947], [0x78ca, 0xfe00]), ([0xfaab], [0x78cc, 0xfe00]),
  ([0x2f950], [0x78cc, 0xfe01]), ([0xf964], [0x78fb, 0xfe00]), ([0xf985], [0x792a, 0xfe00]), ([0xfa18], [0x793c, 0xfe00]),
  ([0xfa4c], [0x793e, 0xfe00]), ([0xfa4e], [0x7948, 0xfe00]), ([0xfa4d], [0x7949, 0xfe00]), ([0xfa4f], [0x7950, 0xfe00]),
  ([0xfa50], [0x7956, 0xfe00]), ([0x2f953], [0x7956, 0xfe01]), ([0xfa51], [0x795d, 0xfe00]), ([0xfa19], [0x795e, 0xfe00]),
  ([0xfa1a], [0x7965, 0xfe00]), ([0xf93c], [0x797f, 0xfe00]), ([0xfa52], [0x798d, 0xfe00]), ([0xfa53], [0x798e, 0xfe00]),
  ([0xfa1b], [0x798f, 0xfe00]), ([0x2f956], [0x798f, 0xfe01]), ([0xf9b6], [0x79ae, 0xfe00]), ([0xf995], [0x79ca, 0xfe00]),
  ([0x2f957], [0x79eb, 0xfe00]), ([0xf956], [0x7a1c, 0xfe00]), ([0xfa54], [0x7a40, 0xfe00]), ([0x2f959], [0x7a40, 0xfe01]),
  ([0x2f95a], [0x7a4a, 0xfe00]), ([0x2f95b], [0x7a4f, 0xfe00]), ([0xfa55], [0x7a81, 0xfe00]), ([0xfaac], [0x7ab1, 0xfe00]),
  ([0xf9f7], [0x7acb, 0xfe00]), ([0x2f95f], [0x7aee, 0xfe00]), ([0xf9f8], [0x7b20, 0xfe00]), ([0xfa56], [0x7bc0, 0xfe00]),
  ([0xfaad], [0x7bc0, 0xfe01]), ([0x2f962], [0x7bc6, 0xfe00]), ([0x2f963], [0x7bc9, 0xfe00]), ([0xf9a6], [0x7c3e, 0xfe00]),
  ([0xf944], [0x7c60, 0xfe00]), ([0xfaae], [0x7c7b, 0xfe00]), ([0xf9f9], [0x7c92, 0xfe00]), ([0xfa1d], [0x7cbe, 0xfe00])]

def lossyTests9 : List (List Nat × List Nat) := [
  ([0x2f966], [0x7cd2, 0xfe00]), ([0xfa03], [0x7cd6, 0xfe00]), ([0x2f969], [0x7ce3, 0xfe00]), ([0xf97b], [0x7ce7, 0xfe00]),
  ([0x2f968], [0x7ce8, 0xfe00]), ([0x2f96a], [0x7d00, 0xfe00]), ([0xf9cf], [0x7d10, 0xfe00]), ([0xf96a], [0x7d22, 0xfe00]),
  ([0xf94f], [0x7d2f, 0xfe00]), ([0xfaaf], [0x7d5b, 0xfe00]), ([0x2f96c], [0x7d63, 0xfe00]), ([0xf93d], [0x7da0, 0xfe00]),
  ([0xf957], [0x7dbe, 0xfe00]), ([0x2f96e], [0x7dc7, 0xfe00]), ([0xf996], [0x7df4, 0xfe00]), ([0xfa57], [0x7df4, 0xfe01]),
  ([0xfab0], [0x7df4, 0xfe02]), ([0x2f96f], [0x7e02, 0xfe00]), ([0xfa58], [0x7e09, 0xfe00]), ([0xf950], [0x7e37, 0xfe00]),
  ([0xfa59], [0x7e41, 0xfe00]), ([0x2f970], [0x7e45, 0xfe00]), ([0xfab1], [0x7f3e, 0xfe00]), ([0xfa5a], [0x7f72, 0xfe00]),
  ([0xf9e6], [0x7f79, 0xfe00]), ([0x2f976], [0x7f7a, 0xfe00]), ([0xf90f], [0x7f85, 0xfe00]), ([0x2f978], [0x7f95, 0xfe00]),
  ([0xf9af], [0x7f9a, 0xfe00]), ([0xfa1e], [0x7fbd, 0xfe00]), ([0x2f979], [0x7ffa, 0xfe00]), ([0xf934], [0x8001, 0xfe00]),
  ([0xfa5b], [0x8005, 0xfe00]), ([0xfab2], [0x8005, 0xfe01]), ([0x2f97a], [0x8005, 0xfe02]), ([0xf9b0], [0x8046, 0xfe00]),
  ([0x2f97d], [0x8060, 0xfe00]), ([0xf997], [0x806f, 0xfe00]), ([0x2f97f], [0x8070, 0xfe00]), ([0xf945], [0x807e, 0xfe00]),
  ([0xf953], [0x808b, 0xfe00]), ([0x2f8d6], [0x80ad, 0xfe00]), ([0x2f982], [0x80b2, 0xfe00]), ([0x2f983], [0x8103, 0xfe00]),
  ([0x2f985], [0x813e, 0xfe00]), ([0xf926], [0x81d8, 0xfe00]), ([0xf9f6], [0x81e8, 0xfe00]), ([0xfa5c], [0x81ed, 0xfe00]),
  ([0x2f893], [0x8201, 0xfe00]), ([0x2f98b], [0x8201, 0xfe01]), ([0x2f98c], [0x8204, 0xfe00]), ([0xfa6d], [0x8218, 0xfe00]),
  ([0xf97c], [0x826f, 0xfe00]), ([0xfa5d], [0x8279, 0xfe00]), ([0xfa5e], [0x8279, 0xfe01]), ([0x2f990], [0x828b, 0xfe00]),
  ([0x2f98f], [0x8291, 0xfe00]), ([0x2f991], [0x829d, 0xfe00]), ([0x2f993], [0x82b1, 0xfe00]), ([0x2f994], [0x82b3, 0xfe00]),
  ([0x2f995], [0x82bd, 0xfe00]), ([0xf974], [0x82e5, 0xfe00]), ([0x2f998], [0x82e5, 0xfe01]), ([0x2f996], [0x82e6, 0xfe00]),
  ([0x2f999], [0x831d, 0xfe00]), ([0x2f99c], [0x8323, 0xfe00]), ([0xf9fe], [0x8336, 0xfe00]), ([0xfab3], [0x8352, 0xfe00]),
  ([0x2f9a0], [0x8353, 0xfe00]), ([0x2f99a], [0x8363, 0xfe00]), ([0x2f99b], [0x83ad, 0xfe00]), ([0x2f99d], [0x83bd, 0xfe00]),
  ([0xf93e], [0x83c9, 0xfe00]), ([0x2f9a1], [0x83ca, 0xfe00]), ([0x2f9a2], [0x83cc, 0xfe00]), ([0x2f9a3], [0x83dc, 0xfe00]),
  ([0x2f99e], [0x83e7, 0xfe00]), ([0xfab4], [0x83ef, 0xfe00]), ([0xf958], [0x83f1, 0xfe00]), ([0xf918], [0x843d, 0xfe00]),
  ([0xf96e], [0x8449, 0xfe00]), ([0xfa5f], [0x8457, 0xfe00]), ([0x2f99f], [0x8457, 0xfe01]), ([0xf999], [0x84ee, 0xfe00]),
  ([0x2f9a8], [0x84f1, 0xfe00]), ([0x2f9a9], [0x84f3, 0xfe00]), ([0xf9c2], [0x84fc, 0xfe00]), ([0x2f9aa], [0x8516, 0xfe00]),
  ([0x2f9ac], [0x8564, 0xfe00]), ([0xf923], [0x85cd, 0xfe00]), ([0xf9f0], [0x85fa, 0xfe00]), ([0xf935], [0x8606, 0xfe00]),
  ([0xfa20], [0x8612, 0xfe00]), ([0xf91f], [0x862d, 0xfe00]), ([0xf910], [0x863f, 0xfe00]), ([0x2f9b3], [0x8650, 0xfe00]),
  ([0xf936], [0x865c, 0xfe00]), ([0x2f9b4], [0x865c, 0xfe01]), ([0x2f9b5], [0x8667, 0xfe00]), ([0x2f9b6], [0x8669, 0xfe00])]

def lossyTests10 : List (List Nat × List Nat) := [
  ([0x2f9b8], [0x8688, 0xfe00]), ([0x2f9b7], [0x86a9, 0xfe00]), ([0x2f9ba], [0x86e2, 0xfe00]), ([0x2f9b9], [0x870e, 0xfe00]),
  ([0x2f9bc], [0x8728, 0xfe00]), ([0x2f9bd], [0x876b, 0xfe00]), ([0xfab5], [0x8779, 0xfe00]), ([0x2f9bb], [0x8779, 0xfe01]),
  ([0x2f9be], [0x8786, 0xfe00]), ([0xf911], [0x87ba, 0xfe00]), ([0x2f9c0], [0x87e1, 0xfe00]), ([0x2f9c1], [0x8801, 0xfe00]),
  ([0xf927], [0x881f, 0xfe00]), ([0xfa08], [0x884c, 0xfe00]), ([0x2f9c3], [0x8860, 0xfe00]), ([0x2f9c4], [0x8863, 0xfe00]),
  ([0xf9a0], [0x88c2, 0xfe00]), ([0xf9e7], [0x88cf, 0xfe00]), ([0x2f9c6], [0x88d7, 0xfe00]), ([0x2f9c7], [0x88de, 0xfe00]),
  ([0xf9e8], [0x88e1, 0xfe00]), ([0xf912], [0x88f8, 0xfe00]), ([0x2f9c9], [0x88fa, 0xfe00]), ([0xfa60], [0x8910, 0xfe00]),
  ([0xfab6], [0x8941, 0xfe00]), ([0xf924], [0x8964, 0xfe00]), ([0xfab7], [0x8986, 0xfe00]), ([0xfa0a], [0x898b, 0xfe00]),
  ([0xfa61], [0x8996, 0xfe00]), ([0xfab8], [0x8996, 0xfe01]), ([0x2f9cf], [0x8aa0, 0xfe00]), ([0xf96f], [0x8aaa, 0xfe00]),
  ([0xf9a1], [0x8aaa, 0xfe01]), ([0xfab9], [0x8abf, 0xfe00]), ([0xfabb], [0x8acb, 0xfe00]), ([0xf97d], [0x8ad2, 0xfe00]),
  ([0xf941], [0x8ad6, 0xfe00]), ([0xfabe], [0x8aed, 0xfe00]), ([0x2f9d0], [0x8aed, 0xfe01]), ([0xfa22], [0x8af8, 0xfe00]),
  ([0xfaba], [0x8af8, 0xfe01]), ([0xf95d], [0x8afe, 0xfe00]), ([0xfabd], [0x8afe, 0xfe01]), ([0xfa62], [0x8b01, 0xfe00]),
  ([0xfabc], [0x8b01, 0xfe01]), ([0xfa63], [0x8b39, 0xfe00]), ([0xfabf], [0x8b39, 0xfe01]), ([0xf9fc], [0x8b58, 0xfe00]),
  ([0xf95a], [0x8b80, 0xfe00]), ([0xfac0], [0x8b8a, 0xfe00]), ([0x2f9d1], [0x8b8a, 0xfe01]), ([0xf900], [0x8c48, 0xfe00]),
  ([0x2f9d2], [0x8c55, 0xfe00]), ([0x2f9d4], [0x8cab, 0xfe00]), ([0x2f9d5], [0x8cc1, 0xfe00]), ([0xf948], [0x8cc2, 0xfe00]),
  ([0xf903], [0x8cc8, 0xfe00]), ([0xfa64], [0x8cd3, 0xfe00]), ([0xfa65], [0x8d08, 0xfe00]), ([0xfac1], [0x8d08, 0xfe01]),
  ([0x2f9d6], [0x8d1b, 0xfe00]), ([0x2f9d7], [0x8d77, 0xfe00]), ([0x2f9db], [0x8dbc, 0xfe00]), ([0x2f9da], [0x8dcb, 0xfe00]),
  ([0xf937], [0x8def, 0xfe00]), ([0x2f9dc], [0x8df0, 0xfe00]), ([0xf902], [0x8eca, 0xfe00]), ([0x2f9de], [0x8ed4, 0xfe00]),
  ([0xf998], [0x8f26, 0xfe00]), ([0xf9d7], [0x8f2a, 0xfe00]), ([0xfac2], [0x8f38, 0xfe00]), ([0x2f9df], [0x8f38, 0xfe01]),
  ([0xfa07], [0x8f3b, 0xfe00]), ([0xf98d], [0x8f62, 0xfe00]), ([0x2f98d], [0x8f9e, 0xfe00]), ([0xf971], [0x8fb0, 0xfe00]),
  ([0xfa66], [0x8fb6, 0xfe00]), ([0xf99a], [0x9023, 0xfe00]), ([0xfa25], [0x9038, 0xfe00]), ([0xfa67], [0x9038, 0xfe01]),
  ([0xfac3], [0x9072, 0xfe00]), ([0xf9c3], [0x907c, 0xfe00]), ([0xf913], [0x908f, 0xfe00]), ([0x2f9e2], [0x9094, 0xfe00]),
  ([0xf92c], [0x90ce, 0xfe00]), ([0xfa2e], [0x90de, 0xfe00]), ([0x2f9e3], [0x90f1, 0xfe00]), ([0xfa26], [0x90fd, 0xfe00]),
  ([0x2f9e4], [0x9111, 0xfe00]), ([0x2f9e6], [0x911b, 0xfe00]), ([0xf919], [0x916a, 0xfe00]), ([0xfac4], [0x9199, 0xfe00]),
  ([0xf9b7], [0x91b4, 0xfe00]), ([0xf9e9], [0x91cc, 0xfe00]), ([0xf97e], [0x91cf, 0xfe00]), ([0xf90a], [0x91d1, 0xfe00]),
  ([0xf9b1], [0x9234, 0xfe00]), ([0x2f9e7], [0x9238, 0xfe00]), ([0xfac5], [0x9276, 0xfe00]), ([0x2f9ea], [0x927c, 0xfe00])]

def lossyTests11 : List (List Nat × List Nat) := [
  ([0x2f9e8], [0x92d7, 0xfe00]), ([0x2f9e9], [0x92d8, 0xfe00]), ([0xf93f], [0x9304, 0xfe00]), ([0xf99b], [0x934a, 0xfe00]),
  ([0x2f9eb], [0x93f9, 0xfe00]), ([0x2f9ec], [0x9415, 0xfe00]), ([0x2f9ee], [0x958b, 0xfe00]), ([0xf986], [0x95ad, 0xfe00]),
  ([0x2f9f0], [0x95b7, 0xfe00]), ([0xf9c6], [0x962e, 0xfe00]), ([0xf951], [0x964b, 0xfe00]), ([0xfa09], [0x964d, 0xfe00]),
  ([0xf959], [0x9675, 0xfe00]), ([0xf9d3], [0x9678, 0xfe00]), ([0xfac6], [0x967c, 0xfe00]), ([0xf9dc], [0x9686, 0xfe00]),
  ([0xf9f1], [0x96a3, 0xfe00]), ([0xfa2f], [0x96b7, 0xfe00]), ([0xf9b8], [0x96b8, 0xfe00]), ([0x2f9f3], [0x96c3, 0xfe00]),
  ([0xf9ea], [0x96e2, 0xfe00]), ([0xfa68], [0x96e3, 0xfe00]), ([0xfac7], [0x96e3, 0xfe01]), ([0xf9b2], [0x96f6, 0xfe00]),
  ([0xf949], [0x96f7, 0xfe00]), ([0x2f9f5], [0x9723, 0xfe00]), ([0xf938], [0x9732, 0xfe00]), ([0xf9b3], [0x9748, 0xfe00]),
  ([0xfa1c], [0x9756, 0xfe00]), ([0xfac8], [0x9756, 0xfe01]), ([0xfac9], [0x97db, 0xfe00]), ([0x2f9fa], [0x97e0, 0xfe00]),
  ([0xfa69], [0x97ff, 0xfe00]), ([0xfaca], [0x97ff, 0xfe01]), ([0xfacb], [0x980b, 0xfe00]), ([0x2f9fe], [0x980b, 0xfe01]),
  ([0x2f9ff], [0x980b, 0xfe02]), ([0xf9b4], [0x9818, 0xfe00]), ([0x2fa00], [0x9829, 0xfe00]), ([0xfa6a], [0x983b, 0xfe00]),
  ([0xfacc], [0x983b, 0xfe01]), ([0xf9d0], [0x985e, 0xfe00]), ([0x2fa02], [0x98e2, 0xfe00]), ([0xfa2a], [0x98ef, 0xfe00]),
  ([0xfa2b], [0x98fc, 0xfe00]), ([0xfa2c], [0x9928, 0xfe00]), ([0x2fa04], [0x9929, 0xfe00]), ([0x2fa05], [0x99a7, 0xfe00]),
  ([0x2fa06], [0x99c2, 0xfe00]), ([0xf91a], [0x99f1, 0xfe00]), ([0x2fa07], [0x99fe, 0xfe00]), ([0xf987], [0x9a6a, 0xfe00]),
  ([0xfacd], [0x9b12, 0xfe00]), ([0x2fa0a], [0x9b12, 0xfe01]), ([0xf939], [0x9b6f, 0xfe00]), ([0x2fa0b], [0x9c40, 0xfe00]),
  ([0xf9f2], [0x9c57, 0xfe00]), ([0x2fa0c], [0x9cfd, 0xfe00]), ([0x2fa0f], [0x9d67, 0xfe00]), ([0xfa2d], [0x9db4, 0xfe00]),
  ([0xf93a], [0x9dfa, 0xfe00]), ([0xf920], [0x9e1e, 0xfe00]), ([0xf940], [0x9e7f, 0xfe00]), ([0xf988], [0x9e97, 0xfe00]),
  ([0xf9f3], [0x9e9f, 0xfe00]), ([0x2fa15], [0x9ebb, 0xfe00]), ([0xf989], [0x9ece, 0xfe00]), ([0x2fa17], [0x9ef9, 0xfe00]),
  ([0x2fa18], [0x9efe, 0xfe00]), ([0x2fa19], [0x9f05, 0xfe00]), ([0x2fa1a], [0x9f0f, 0xfe00]), ([0x2fa1b], [0x9f16, 0xfe00]),
  ([0x2fa1c], [0x9f3b, 0xfe00]), ([0xfad8], [0x9f43, 0xfe00]), ([0xf9c4], [0x9f8d, 0xfe00]), ([0xfad9], [0x9f8e, 0xfe00]),
  ([0xf907], [0x9f9c, 0xfe00]), ([0xf908], [0x9f9c, 0xfe01]), ([0xface], [0x9f9c, 0xfe02]), ([0x2f803], [0x20122, 0xfe00]),
  ([0x2f812], [0x2051c, 0xfe00]), ([0x2f91b], [0x20525, 0xfe00]), ([0x2f816], [0x2054b, 0xfe00]), ([0x2f80d], [0x2063a, 0xfe00]),
  ([0x2f9d9], [0x20804, 0xfe00]), ([0x2f9dd], [0x208de, 0xfe00]), ([0x2f834], [0x20a2c, 0xfe00]), ([0x2f838], [0x20b63, 0xfe00]),
  ([0x2f859], [0x214e4, 0xfe00]), ([0x2f860], [0x216a8, 0xfe00]), ([0x2f861], [0x216ea, 0xfe00]), ([0x2f86c], [0x219c8, 0xfe00]),
  ([0x2f871], [0x21b18, 0xfe00]), ([0x2f8f8], [0x21d0b, 0xfe00]), ([0x2f87b], [0x21de4, 0xfe00]), ([0x2f87d], [0x21de6, 0xfe00]),
  ([0x2f889], [0x22183, 0xfe00]), ([0x2f939], [0x2219f, 0xfe00]), ([0x2f891], [0x22331, 0xfe00]), ([0x2f892], [0x22331, 0xfe01])]

def lossyTests12 : List (List Nat × List Nat) := [
  ([0x2f8a4], [0x226d4, 0xfe00]), ([0xfad0], [0x22844, 0xfe00]), ([0xfacf], [0x2284a, 0xfe00]), ([0x2f8b8], [0x22b0c, 0xfe00]),
  ([0x2f8be], [0x22bf1, 0xfe00]), ([0x2f8ca], [0x2300a, 0xfe00]), ([0x2f897], [0x232b8, 0xfe00]), ([0x2f980], [0x2335f, 0xfe00]),
  ([0x2f989], [0x23393, 0xfe00]), ([0x2f98a], [0x2339c, 0xfe00]), ([0x2f8dd], [0x233c3, 0xfe00]), ([0xfad1], [0x233d5, 0xfe00]),
  ([0x2f8e3], [0x2346d, 0xfe00]), ([0x2f8ec], [0x236a3, 0xfe00]), ([0x2f8f0], [0x238a7, 0xfe00]), ([0x2f8f7], [0x23a8d, 0xfe00]),
  ([0x2f8f9], [0x23afa, 0xfe00]), ([0x2f8fb], [0x23cbc, 0xfe00]), ([0x2f906], [0x23d1e, 0xfe00]), ([0x2f90d], [0x23ed1, 0xfe00]),
  ([0x2f910], [0x23f5e, 0xfe00]), ([0x2f911], [0x23f8e, 0xfe00]), ([0x2f91d], [0x24263, 0xfe00]), ([0xfa6c], [0x242ee, 0xfe00]),
  ([0x2f91f], [0x243ab, 0xfe00]), ([0x2f923], [0x24608, 0xfe00]), ([0x2f926], [0x24735, 0xfe00]), ([0x2f927], [0x24814, 0xfe00]),
  ([0x2f935], [0x24c36, 0xfe00]), ([0x2f937], [0x24c92, 0xfe00]), ([0x2f93b], [0x24fa1, 0xfe00]), ([0x2f93c], [0x24fb8, 0xfe00]),
  ([0x2f93d], [0x25044, 0xfe00]), ([0x2f942], [0x250f2, 0xfe00]), ([0x2f941], [0x250f3, 0xfe00]), ([0x2f943], [0x25119, 0xfe00]),
  ([0x2f944], [0x25133, 0xfe00]), ([0xfad5], [0x25249, 0xfe00]), ([0x2f94d], [0x2541d, 0xfe00]), ([0x2f952], [0x25626, 0xfe00]),
  ([0x2f954], [0x2569a, 0xfe00]), ([0x2f955], [0x256c5, 0xfe00]), ([0x2f95c], [0x2597c, 0xfe00]), ([0x2f95d], [0x25aa7, 0xfe00]),
  ([0x2f95e], [0x25aa7, 0xfe01]), ([0x2f961], [0x25bab, 0xfe00]), ([0x2f965], [0x25c80, 0xfe00]), ([0xfad6], [0x25cd0, 0xfe00]),
  ([0x2f96b], [0x25f86, 0xfe00]), ([0x2f898], [0x261da, 0xfe00]), ([0x2f972], [0x26228, 0xfe00]), ([0x2f973], [0x26247, 0xfe00]),
  ([0x2f975], [0x262d9, 0xfe00]), ([0x2f977], [0x2633e, 0xfe00]), ([0x2f97b], [0x264da, 0xfe00]), ([0x2f97c], [0x26523, 0xfe00]),
  ([0x2f97e], [0x265a8, 0xfe00]), ([0x2f987], [0x267a7, 0xfe00]), ([0x2f988], [0x267b5, 0xfe00]), ([0x2f997], [0x26b3c, 0xfe00]),
  ([0x2f9a4], [0x26c36, 0xfe00]), ([0x2f9a6], [0x26cd5, 0xfe00]), ([0x2f9a5], [0x26d6b, 0xfe00]), ([0x2f9ad], [0x26f2c, 0xfe00]),
  ([0x2f9b0], [0x26fb1, 0xfe00]), ([0x2f9b1], [0x270d2, 0xfe00]), ([0x2f9ab], [0x273ca, 0xfe00]), ([0x2f9c5], [0x27667, 0xfe00]),
  ([0x2f9cb], [0x278ae, 0xfe00]), ([0x2f9cc], [0x27966, 0xfe00]), ([0x2f9d3], [0x27ca8, 0xfe00]), ([0xfad7], [0x27ed3, 0xfe00]),
  ([0x2f9d8], [0x27f2f, 0xfe00]), ([0x2f9e0], [0x285d2, 0xfe00]), ([0x2f9e1], [0x285ed, 0xfe00]), ([0x2f9e5], [0x2872e, 0xfe00]),
  ([0x2f9ed], [0x28bfa, 0xfe00]), ([0x2f9f1], [0x28d77, 0xfe00]), ([0x2f9f6], [0x29145, 0xfe00]), ([0x2f81c], [0x291df, 0xfe00]),
  ([0x2f9f7], [0x2921a, 0xfe00]), ([0x2f9fb], [0x2940a, 0xfe00]), ([0x2f9fd], [0x29496, 0xfe00]), ([0x2fa01], [0x295b6, 0xfe00]),
  ([0x2fa09], [0x29b30, 0xfe00]), ([0x2fa10], [0x2a0ce, 0xfe00]), ([0x2fa12], [0x2a105, 0xfe00]), ([0x2fa13], [0x2a20e, 0xfe00]),
  ([0x2fa14], [0x2a291, 0xfe00]), ([0x2f88f], [0x2a392, 0xfe00]), ([0x2fa1d], [0x2a600, 0xfe00])]

def lossyTests : List (List Nat × List Nat) := lossyTests0 ++ lossyTests1 ++ lossyTests2 ++ lossyTests3 ++ lossyTests4 ++ lossyTests5 ++ lossyTests6 ++ lossyTests7 ++ lossyTests8 ++ lossyTests9 ++ lossyTests10 ++ lossyTests11 ++ lossyTests12

def ownedTests : List (List Nat × List Nat) := [
  ([], []),
  ([0x68, 0x65, 0x6c, 0x6c, 0x6f, 0x20, 0x77, 0x6f, 0x72, 0x6c, 0x64, 0x21], [0x68, 0x65, 0x6c, 0x6c, 0x6f, 0x20, 0x77, 0x6f, 0x72, 0x6c, 0x64, 0x21]),
  ([0xa], [0xa]), ([9], [9]), ([0x20], [0x20]), ([0x5b, 0x28, 0x7b, 0x22, 0x5c, 0x7e, 0x40], [0x5b, 0x28, 0x7b, 0x22, 0x5c, 0x7e, 0x40]),
  ([9, 0xa, 0x20, 0xa0], [9, 0xa, 0x20, 0xa0]), ([0x2011, 0xad], [0x2011, 0xad]),
  ([0x41, 0x34f, 0x200c, 0x200d, 0x2060], [0x41, 0x34f, 0x200c, 0x200d, 0x2060]), ([0x200e, 0x200f, 0x61c], [0x200e, 0x200f, 0x61c]),
  ([0xfffd], [0xfffd]), ([0x10fffd, 0xfdfa, 0x2800], [0x10fffd, 0xfdfa, 0x2800]), ([0xe0000, 0xe0002], [0x34f, 0xe0000, 0x34f, 0xe0002, 0x34f]),
  ([0x68, 0x65, 0x6c, 0x6c, 0x6f, 0x306, 0x306, 0x306, 0x306, 0x306, 0x306, 0x306, 0x306, 0x306, 0x306, 0x306, 0x306, 0x306, 0x306, 0x306, 0x306, 0x306, 0x306, 0x306, 0x306, 0x306, 0x306, 0x306, 0x306, 0x306, 0x306, 0x306, 0x306, 0x306, 0x306, 0x306], [0x68, 0x65, 0x6c, 0x6c, 0x14f, 0x306, 0x306, 0x306, 0x306, 0x306, 0x306, 0x306, 0x306, 0x306, 0x306, 0x306, 0x306, 0x306, 0x306, 0x306, 0x306, 0x306, 0x306, 0x306, 0x306, 0x306, 0x306, 0x306, 0x306, 0x306, 0x306, 0x306, 0x306, 0x306, 0x34f, 0x306]),
  ([0x68, 0x65, 0x6c, 0x6c, 0x14f, 0x306, 0x306, 0x306, 0x306, 0x306, 0x306, 0x306, 0x306, 0x306, 0x306, 0x306, 0x306, 0x306, 0x306, 0x306, 0x306, 0x306, 0x306, 0x306, 0x306, 0x306, 0x306, 0x306, 0x306, 0x306, 0x306, 0x306, 0x306, 0x306, 0x306], [0x68, 0x65, 0x6c, 0x6c, 0x14f, 0x306, 0x306, 0x306, 0x306, 0x306, 0x306, 0x306, 0x306, 0x306, 0x306, 0x306, 0x306, 0x306, 0x306, 0x306, 0x306, 0x306, 0x306, 0x306, 0x306, 0x306, 0x306, 0x306, 0x306, 0x306, 0x306, 0x306, 0x306, 0x306, 0x34f, 0x306]),
  ([0x41, 0x30a], [0xc5]), ([0x387], [0xb7]), ([0x41, 0x327, 0x30a], [0xc5, 0x327]),
  ([0x41, 0x327, 0x327, 0x327, 0x327, 0x327, 0x327, 0x327, 0x327, 0x327, 0x327, 0x327, 0x327, 0x327, 0x327, 0x327, 0x327, 0x327, 0x327, 0x327, 0x327, 0x327, 0x327, 0x327, 0x327, 0x327, 0x327, 0x327, 0x327, 0x327, 0x30a], [0xc5, 0x327, 0x327, 0x327, 0x327, 0x327, 0x327, 0x327, 0x327, 0x327, 0x327, 0x327, 0x327, 0x327, 0x327, 0x327, 0x327, 0x327, 0x327, 0x327, 0x327, 0x327, 0x327, 0x327, 0x327, 0x327, 0x327, 0x327, 0x327, 0x327]),
  ([0x41, 0x327, 0x327, 0x327, 0x327, 0x327, 0x327, 0x327, 0x327, 0x327, 0x327, 0x327, 0x327, 0x327, 0x327, 0x327, 0x327, 0x327, 0x327, 0x327, 0x327, 0x327, 0x327, 0x327, 0x327, 0x327, 0x327, 0x327, 0x327, 0x327, 0x327, 0x30a], [0x41, 0x327, 0x327, 0x327, 0x327, 0x327, 0x327, 0x327, 0x327, 0x327, 0x327, 0x327, 0x327, 0x327, 0x327, 0x327, 0x327, 0x327, 0x327, 0x327, 0x327, 0x327, 0x327, 0x327, 0x327, 0x327, 0x327, 0x327, 0x327, 0x327, 0x327, 0x34f, 0x30a])]

def writeTests : List (List Nat × List Nat) := [
  ([], []), ([0xa], [0xa]), ([0x68, 0x65, 0x6c, 0x6c, 0x6f, 0xa], [0x68, 0x65, 0x6c, 0x6c, 0x6f, 0xa]),
  ([0x68, 0x65, 0x6c, 0x6c, 0x6f, 0xa, 0x77, 0x6f, 0x72, 0x6c, 0x64, 0xa], [0x68, 0x65, 0x6c, 0x6c, 0x6f, 0xa, 0x77, 0x6f, 0x72, 0x6c, 0x64, 0xa]),
  ([], []), ([0xa], [0xa]),
  ([0xa, 0x68, 0x65, 0x6c, 0x6c, 0x6f, 0xa, 0x77, 0x6f, 0x72, 0x6c, 0x64, 0xa], [0xa, 0x68, 0x65, 0x6c, 0x6c, 0x6f, 0xa, 0x77, 0x6f, 0x72, 0x6c, 0x64, 0xa]),
  ([0xc5, 0xa], [0xc5, 0xa]), ([0x41, 0x30a, 0xa], [0xc5, 0xa]), ([0x11099, 0x110ba, 0xa], [0x1109a, 0xa]), ([0x1109a, 0xa], [0x1109a, 0xa])]

def writeBomTests : List (List Nat × List Nat) := [
  ([], [0xfeff]), ([0xa], [0xfeff, 0xa]), ([0x68, 0x65, 0x6c, 0x6c, 0x6f, 0xa], [0xfeff, 0x68, 0x65, 0x6c, 0x6c, 0x6f, 0xa])]

def writeCrlfTests : List (List Nat × List Nat) := [
  ([0xa], [0xd, 0xa]), ([0xa, 0xa], [0xd, 0xa, 0xd, 0xa]), ([0x68, 0x65, 0x6c, 0x6c, 0x6f, 0xa], [0x68, 0x65, 0x6c, 0x6c, 0x6f, 0xd, 0xa]),
  ([0x68, 0x65, 0x6c, 0x6c, 0x6f, 0xa, 0x77, 0x6f, 0x72, 0x6c, 0x64, 0xa], [0x68, 0x65, 0x6c, 0x6c, 0x6f, 0xd, 0xa, 0x77, 0x6f, 0x72, 0x6c, 0x64, 0xd, 0xa])]

def writeErrTests0 : List (List Nat) := [
  [0x68, 0x65, 0x6c, 0x6c, 0x6f, 0xfeff, 0xa], [0x68, 0x65, 0x6c, 0x6c, 0x6f], [0x68, 0x65, 0x6c, 0x6c, 0x6f, 0xa, 0x77, 0x6f, 0x72, 0x6c, 0x64],
  [0xd, 0xa], [0x68, 0x65, 0x6c, 0x6c, 0x6f, 0xd, 0xa], [0x68, 0x65, 0x6c, 0x6c, 0x6f, 0xd, 0xa, 0x77, 0x6f, 0x72, 0x6c, 0x64],
  [0x68, 0x65, 0x6c, 0x6c, 0x6f, 0xd, 0xa, 0x77, 0x6f, 0x72, 0x6c, 0x64, 0xd, 0xa], [0x2df5, 0x68, 0x65, 0x6c, 0x6c, 0x6f],
  [0x68, 0x65, 0x6c, 0x6c, 0x6f, 0x2df5], [0x68, 0x65, 0x6c, 0x6c, 0x6f, 0x2df5, 0x77, 0x6f, 0x72, 0x6c, 0x64], [0x68, 0x65, 0x6c, 0x6c, 0x6f],
  [0xfeff], [0xfeff, 0xa], [0xfeff, 0x68, 0x65, 0x6c, 0x6c, 0x6f, 0xfeff, 0x77, 0x6f, 0x72, 0x6c, 0x64, 0xfeff],
  [0xfeff, 0x68, 0x65, 0x6c, 0x6c, 0x6f, 0xfeff, 0x77, 0x6f, 0x72, 0x6c, 0x64, 0xfeff, 0xa],
  [0xfeff, 0x68, 0x65, 0x6c, 0x6c, 0x6f, 0x20, 0x77, 0x6f, 0x72, 0x6c, 0x64, 0xa],
  [0x68, 0x65, 0x6c, 0x6c, 0x6f, 0xfeff, 0x77, 0x6f, 0x72, 0x6c, 0x64, 0xa],
  [0x68, 0x65, 0x6c, 0x6c, 0x6f, 0x20, 0x77, 0x6f, 0x72, 0x6c, 0x64, 0xfeff],
  [0x68, 0x65, 0x6c, 0x6c, 0x6f, 0x20, 0x77, 0x6f, 0x72, 0x6c, 0x64, 0xfeff, 0xa], [0xd, 0xa],
  [0xd, 0xa, 0x68, 0x65, 0x6c, 0x6c, 0x6f, 0xd, 0xa, 0x77, 0x6f, 0x72, 0x6c, 0x64, 0xd],
  [0xd, 0xa, 0x68, 0x65, 0x6c, 0x6c, 0x6f, 0xd, 0xa, 0x77, 0x6f, 0x72, 0x6c, 0x64, 0xd, 0xa],
  [0xd, 0xa, 0x68, 0x65, 0x6c, 0x6c, 0x6f, 0x20, 0x77, 0x6f, 0x72, 0x6c, 0x64, 0xa],
  [0x68, 0x65, 0x6c, 0x6c, 0x6f, 0xd, 0xa, 0x77, 0x6f, 0x72, 0x6c, 0x64, 0xa],
  [0x68, 0x65, 0x6c, 0x6c, 0x6f, 0x20, 0x77, 0x6f, 0x72, 0x6c, 0x64, 0xd],
  [0x68, 0x65, 0x6c, 0x6c, 0x6f, 0x20, 0x77, 0x6f, 0x72, 0x6c, 0x64, 0xd, 0xa], [0xd],
  [0xd, 0x68, 0x65, 0x6c, 0x6c, 0x6f, 0xd, 0x77, 0x6f, 0x72, 0x6c, 0x64, 0xd],
  [0xd, 0x68, 0x65, 0x6c, 0x6c, 0x6f, 0xd, 0x77, 0x6f, 0x72, 0x6c, 0x64, 0xd, 0xa],
  [0xd, 0x68, 0x65, 0x6c, 0x6c, 0x6f, 0x20, 0x77, 0x6f, 0x72, 0x6c, 0x64, 0xa],
  [0x68, 0x65, 0x6c, 0x6c, 0x6f, 0xd, 0x77, 0x6f, 0x72, 0x6c, 0x64, 0xa], [0x68, 0x65, 0x6c, 0x6c, 0x6f, 0x20, 0x77, 0x6f, 0x72, 0x6c, 0x64, 0xd],
  [0x68, 0x65, 0x6c, 0x6c, 0x6f, 0x20, 0x77, 0x6f, 0x72, 0x6c, 0x64, 0xd, 0xa], [0xc], [0xc, 0xa],
  [0xc, 0x68, 0x65, 0x6c, 0x6c, 0x6f, 0xc, 0x77, 0x6f, 0x72, 0x6c, 0x64, 0xc],
  [0xc, 0x68, 0x65, 0x6c, 0x6c, 0x6f, 0xc, 0x77, 0x6f, 0x72, 0x6c, 0x64, 0xc, 0xa],
  [0xc, 0x68, 0x65, 0x6c, 0x6c, 0x6f, 0x20, 0x77, 0x6f, 0x72, 0x6c, 0x64, 0xa],
  [0x68, 0x65, 0x6c, 0x6c, 0x6f, 0xc, 0x77, 0x6f, 0x72, 0x6c, 0x64, 0xa], [0x68, 0x65, 0x6c, 0x6c, 0x6f, 0x20, 0x77, 0x6f, 0x72, 0x6c, 0x64, 0xc],
  [0x68, 0x65, 0x6c, 0x6c, 0x6f, 0x20, 0x77, 0x6f, 0x72, 0x6c, 0x64, 0xc, 0xa], [0x7f], [0x7f, 0xa],
  [0x7f, 0x68, 0x65, 0x6c, 0x6c, 0x6f, 0x7f, 0x77, 0x6f, 0x72, 0x6c, 0x64, 0x7f],
  [0x7f, 0x68, 0x65, 0x6c, 0x6c, 0x6f, 0x7f, 0x77, 0x6f, 0x72, 0x6c, 0x64, 0x7f, 0xa],
  [0x7f, 0x68, 0x65, 0x6c, 0x6c, 0x6f, 0x20, 0x77, 0x6f, 0x72, 0x6c, 0x64, 0xa],
  [0x68, 0x65, 0x6c, 0x6c, 0x6f, 0x7f, 0x77, 0x6f, 0x72, 0x6c, 0x64, 0xa], [0x68, 0x65, 0x6c, 0x6c, 0x6f, 0x20, 0x77, 0x6f, 0x72, 0x6c, 0x64, 0x7f],
  [0x68, 0x65, 0x6c, 0x6c, 0x6f, 0x20, 0x77, 0x6f, 0x72, 0x6c, 0x64, 0x7f, 0xa], [0], [1], [2], [3], [4], [5], [6], [7], [8], [0xb], [0xe], [0xf],
  [0x10], [0x11], [0x12], [0x13], [0x14], [0x15], [0x16], [0x17], [0x18], [0x19], [0x1a], [0x1b], [0x1c], [0x1d], [0x1e], [0x1f], [0, 0xa], [1, 0xa],
  [2, 0xa], [3, 0xa], [4, 0xa], [5, 0xa], [6, 0xa], [7, 0xa], [8, 0xa], [0xb, 0xa], [0xe, 0xa], [0xf, 0xa], [0x10, 0xa], [0x11, 0xa], [0x12, 0xa],
  [0x13, 0xa], [0x14, 0xa], [0x15, 0xa], [0x16, 0xa], [0x17, 0xa], [0x18, 0xa], [0x19, 0xa], [0x1a, 0xa]]

def writeErrTests1 : List (List Nat) := [
  [0x1b, 0xa], [0x1c, 0xa], [0x1d, 0xa], [0x1e, 0xa], [0x1f, 0xa], [0x80], [0x81], [0x82], [0x83], [0x84], [0x85], [0x86], [0x87], [0x88], [0x89],
  [0x8a], [0x8b], [0x8c], [0x8d], [0x8e], [0x8f], [0x90], [0x91], [0x92], [0x93], [0x94], [0x95], [0x96], [0x97], [0x98], [0x99], [0x9a], [0x9b],
  [0x9c], [0x9d], [0x9e], [0x9f], [0x80, 0xa], [0x81, 0xa], [0x82, 0xa], [0x83, 0xa], [0x84, 0xa], [0x85, 0xa], [0x86, 0xa], [0x87, 0xa],
  [0x88, 0xa], [0x89, 0xa], [0x8a, 0xa], [0x8b, 0xa], [0x8c, 0xa], [0x8d, 0xa], [0x8e, 0xa], [0x8f, 0xa], [0x90, 0xa], [0x91, 0xa], [0x92, 0xa],
  [0x93, 0xa], [0x94, 0xa], [0x95, 0xa], [0x96, 0xa], [0x97, 0xa], [0x98, 0xa], [0x99, 0xa], [0x9a, 0xa], [0x9b, 0xa], [0x9c, 0xa], [0x9d, 0xa],
  [0x9e, 0xa], [0x9f, 0xa], [0x212b], [0x212b, 0xa], [0x30a], [0x30a, 0xa], [0x1b], [0x1b, 0xa], [0x1b, 0x40], [0x1b, 0x40, 0xa],
  [0x1b, 0x40, 0x68, 0x65, 0x6c, 0x6c, 0x6f, 0x1b, 0x40, 0x77, 0x6f, 0x72, 0x6c, 0x64, 0x1b, 0x40],
  [0x1b, 0x40, 0x68, 0x65, 0x6c, 0x6c, 0x6f, 0x1b, 0x40, 0x77, 0x6f, 0x72, 0x6c, 0x64, 0x1b, 0x40, 0xa], [0x1b, 0x5b], [0x1b, 0x5b, 0xa],
  [0x1b, 0x5b, 0x40, 0x68, 0x65, 0x6c, 0x6c, 0x6f, 0x1b, 0x5b, 0x40, 0x77, 0x6f, 0x72, 0x6c, 0x64, 0x1b, 0x5b, 0x40],
  [0x1b, 0x5b, 0x40, 0x68, 0x65, 0x6c, 0x6c, 0x6f, 0x1b, 0x5b, 0x40, 0x77, 0x6f, 0x72, 0x6c, 0x64, 0x1b, 0x5b, 0x40, 0xa],
  [0x1b, 0x5b, 0x2b, 0x40, 0x68, 0x65, 0x6c, 0x6c, 0x6f, 0x1b, 0x5b, 0x2b, 0x40, 0x77, 0x6f, 0x72, 0x6c, 0x64, 0x1b, 0x5b, 0x2b, 0x40],
  [0x1b, 0x5b, 0x2b, 0x40, 0x68, 0x65, 0x6c, 0x6c, 0x6f, 0x1b, 0x5b, 0x2b, 0x40, 0x77, 0x6f, 0x72, 0x6c, 0x64, 0x1b, 0x5b, 0x2b, 0x40, 0xa],
  [0x1b, 0x5d], [0x1b, 0x5d, 0xa], [0x1b, 0x5d, 7, 0x68, 0x65, 0x6c, 0x6c, 0x6f, 0x1b, 0x5d, 7, 0x77, 0x6f, 0x72, 0x6c, 0x64, 0x1b, 0x5d, 7],
  [0x1b, 0x5d, 7, 0x68, 0x65, 0x6c, 0x6c, 0x6f, 0x1b, 0x5d, 7, 0x77, 0x6f, 0x72, 0x6c, 0x64, 0x1b, 0x5d, 7, 0xa],
  [0x1b, 0x5d, 0x6d, 0x65, 0x73, 0x73, 0x61, 0x67, 0x65, 7, 0x68, 0x65, 0x6c, 0x6c, 0x6f, 0x1b, 0x5d, 0x6d, 0x65, 0x73, 0x73, 0x61, 0x67, 0x65, 7, 0x77, 0x6f, 0x72, 0x6c, 0x64, 0x1b, 0x5d, 0x6d, 0x65, 0x73, 0x73, 0x61, 0x67, 0x65, 7],
  [0x1b, 0x5d, 0x6d, 0x65, 0x73, 0x73, 0x61, 0x67, 0x65, 7, 0x68, 0x65, 0x6c, 0x6c, 0x6f, 0x1b, 0x5d, 0x6d, 0x65, 0x73, 0x73, 0x61, 0x67, 0x65, 7, 0x77, 0x6f, 0x72, 0x6c, 0x64, 0x1b, 0x5d, 0x6d, 0x65, 0x73, 0x73, 0x61, 0x67, 0x65, 7, 0xa],
  [0x1b, 0x5d, 0x6d, 0x65, 0x73, 0xa, 0x73, 9, 0x61, 0x67, 0x65, 7, 0x68, 0x65, 0x6c, 0x6c, 0x6f, 0x1b, 0x5d, 0x6d, 0x65, 0x73, 0xa, 0x73, 9, 0x61, 0x67, 0x65, 7, 0x77, 0x6f, 0x72, 0x6c, 0x64, 0x1b, 0x5d, 0x6d, 0x65, 0x73, 0xa, 0x73, 9, 0x61, 0x67, 0x65, 7],
  [0x1b, 0x5d, 0x6d, 0x65, 0x73, 0xa, 0x73, 9, 0x61, 0x67, 0x65, 7, 0x68, 0x65, 0x6c, 0x6c, 0x6f, 0x1b, 0x5d, 0x6d, 0x65, 0x73, 0xa, 0x73, 9, 0x61, 0x67, 0x65, 7, 0x77, 0x6f, 0x72, 0x6c, 0x64, 0x1b, 0x5d, 0x6d, 0x65, 0x73, 0xa, 0x73, 9, 0x61, 0x67, 0x65, 7, 0xa],
  [0x1b, 0x5b, 0x5b, 0x41], [0x1b, 0x5b, 0x5b, 0x41, 0xa],
  [0x1b, 0x5b, 0x5b, 0x41, 0x68, 0x65, 0x6c, 0x6c, 0x6f, 0x1b, 0x5b, 0x5b, 0x41, 0x77, 0x6f, 0x72, 0x6c, 0x64, 0x1b, 0x5b, 0x5b, 0x41],
  [0x1b, 0x5b, 0x5b, 0x41, 0x68, 0x65, 0x6c, 0x6c, 0x6f, 0x1b, 0x5b, 0x5b, 0x41, 0x77, 0x6f, 0x72, 0x6c, 0x64, 0x1b, 0x5b, 0x5b, 0x41, 0xa],
  [0x1d455], [0x1d455, 0xa], [0x11099, 0x110ba]]

def writeErrTests2 : List (List Nat) := [
  [0x1109a], [0x110ba], [0x110ba, 0xa], [0, 0xa], [1, 0xa], [2, 0xa], [3, 0xa], [4, 0xa], [5, 0xa], [6, 0xa], [7, 0xa], [8, 0xa], [0xb, 0xa],
  [0xe, 0xa], [0xf, 0xa], [0x10, 0xa], [0x11, 0xa], [0x12, 0xa], [0x13, 0xa], [0x14, 0xa], [0x15, 0xa], [0x16, 0xa], [0x17, 0xa], [0x18, 0xa],
  [0x19, 0xa], [0x1a, 0xa], [0x1c, 0xa], [0x1d, 0xa], [0x1e, 0xa], [0x1f, 0xa], [0x7f, 0xa], [0x80, 0xa], [0x81, 0xa], [0x82, 0xa], [0x83, 0xa],
  [0x84, 0xa], [0x86, 0xa], [0x87, 0xa], [0x88, 0xa], [0x89, 0xa], [0x8a, 0xa], [0x8b, 0xa], [0x8c, 0xa], [0x8d, 0xa], [0x8e, 0xa], [0x8f, 0xa],
  [0x90, 0xa], [0x91, 0xa], [0x92, 0xa], [0x93, 0xa], [0x94, 0xa], [0x95, 0xa], [0x96, 0xa], [0x97, 0xa], [0x98, 0xa], [0x99, 0xa], [0x9a, 0xa],
  [0x9b, 0xa], [0x9c, 0xa], [0x9d, 0xa], [0x9e, 0xa], [0x9f, 0xa], [0x9e4, 0xa], [0x9e5, 0xa], [0xa64, 0xa], [0xa65, 0xa], [0xae4, 0xa],
  [0xae5, 0xa], [0xb64, 0xa], [0xb65, 0xa], [0xbe4, 0xa], [0xbe5, 0xa], [0xc64, 0xa], [0xc65, 0xa], [0xce4, 0xa], [0xce5, 0xa], [0xd64, 0xa],
  [0xd65, 0xa], [0x17b4, 0xa], [0x17b5, 0xa], [0x17d8, 0xa], [0x202a, 0xa], [0x202b, 0xa], [0x202c, 0xa], [0x202d, 0xa], [0x202e, 0xa],
  [0x2066, 0xa], [0x2067, 0xa], [0x2068, 0xa], [0x2069, 0xa], [0x206a, 0xa], [0x206b, 0xa], [0x206c, 0xa], [0x206d, 0xa], [0x206e, 0xa],
  [0x206f, 0xa], [0x2072, 0xa], [0x2073, 0xa], [0xfff9, 0xa], [0xfffa, 0xa]]

def writeErrTests3 : List (List Nat) := [
  [0xfffb, 0xa], [0xfffc, 0xa], [0xe0001, 0xa], [0xfffe, 0xa], [0xffff, 0xa], [0x1fffe, 0xa], [0x1ffff, 0xa], [0x2fffe, 0xa], [0x2ffff, 0xa],
  [0x3fffe, 0xa], [0x3ffff, 0xa], [0x4fffe, 0xa], [0x4ffff, 0xa], [0x5fffe, 0xa], [0x5ffff, 0xa], [0x6fffe, 0xa], [0x6ffff, 0xa], [0x7fffe, 0xa],
  [0x7ffff, 0xa], [0x8fffe, 0xa], [0x8ffff, 0xa], [0x9fffe, 0xa], [0x9ffff, 0xa], [0xafffe, 0xa], [0xaffff, 0xa], [0xbfffe, 0xa], [0xbffff, 0xa],
  [0xcfffe, 0xa], [0xcffff, 0xa], [0xdfffe, 0xa], [0xdffff, 0xa], [0xefffe, 0xa], [0xeffff, 0xa], [0xffffe, 0xa], [0xfffff, 0xa], [0x10fffe, 0xa],
  [0x10ffff, 0xa], [0xfdd0, 0xa], [0xfdd1, 0xa], [0xfdd2, 0xa], [0xfdd3, 0xa], [0xfdd4, 0xa], [0xfdd5, 0xa], [0xfdd6, 0xa], [0xfdd7, 0xa],
  [0xfdd8, 0xa], [0xfdd9, 0xa], [0xfdda, 0xa], [0xfddb, 0xa], [0xfddc, 0xa], [0xfddd, 0xa], [0xfdde, 0xa], [0xfddf, 0xa], [0xfde0, 0xa],
  [0xfde1, 0xa], [0xfde2, 0xa], [0xfde3, 0xa], [0xfde4, 0xa], [0xfde5, 0xa], [0xfde6, 0xa], [0xfde7, 0xa], [0xfde8, 0xa], [0xfde9, 0xa],
  [0xfdea, 0xa], [0xfdeb, 0xa], [0xfdec, 0xa], [0xfded, 0xa], [0xfdee, 0xa], [0xfdef, 0xa], [0x1d455, 0xa], [0x1d49d, 0xa], [0x1d4a0, 0xa],
  [0x1d4a1, 0xa], [0x1d4a3, 0xa], [0x1d4a4, 0xa], [0x1d4a7, 0xa], [0x1d4a8, 0xa], [0x1d4ad, 0xa], [0x1d4ba, 0xa], [0x1d4bc, 0xa], [0x1d4c4, 0xa],
  [0x1d506, 0xa], [0x1d50b, 0xa], [0x1d50c, 0xa], [0x1d515, 0xa], [0x1d51d, 0xa], [0x1d53a, 0xa], [0x1d53f, 0xa], [0x1d545, 0xa], [0x1d547, 0xa],
  [0x1d548, 0xa], [0x1d549, 0xa], [0x1d551, 0xa], [7, 0xa], [0xc, 0xa], [0x1b, 0xa], [0xfeff, 0xa], [0x149, 0xa], [0x673, 0xa], [0xf77, 0xa]]

def writeErrTests4 : List (List Nat) := [
  [0xf79, 0xa], [0x17a3, 0xa], [0x17a4, 0xa], [0x2329, 0xa], [0x232a, 0xa], [0x2126, 0xa], [0x212a, 0xa], [0x212b, 0xa], [0x2028, 0xa], [0x2029, 0xa]]

def writeErrTests : List (List Nat) := writeErrTests0 ++ writeErrTests1 ++ writeErrTests2 ++ writeErrTests3 ++ writeErrTests4

def writeCrlfErrTests : List (List Nat) := [
  [0xd, 0xa]]

def sampleExample0 : List Nat := [
  0x54, 0x68, 0x69, 0x73, 0x20, 0x66, 0x69, 0x6c, 0x65, 0x20, 0x63, 0x6f, 0x6e, 0x74, 0x61, 0x69, 0x6e, 0x73, 0x20, 0x76, 0x61, 0x6c, 0x69, 0x64,
  0x20, 0x42, 0x61, 0x73, 0x69, 0x63, 0x20, 0x54, 0x65, 0x78, 0x74, 0x2e, 0xa, 0xa, 0x42, 0x61, 0x73, 0x69, 0x63, 0x20, 0x54, 0x65, 0x78, 0x74, 0x20,
  0x69, 0x6e, 0x63, 0x6c, 0x75, 0x64, 0x65, 0x73, 0x20, 0x74, 0x61, 0x62, 0x9, 0x61, 0x6e, 0x64, 0x20, 0x6c, 0x69, 0x6d, 0x69, 0x74, 0x65, 0x64,
  0x20, 0x66, 0x6f, 0x72, 0x6d, 0x61, 0x74, 0x20, 0x63, 0x6f, 0x6e, 0x74, 0x72, 0x6f, 0x6c, 0x73, 0x20, 0x73, 0x75, 0x63, 0x68, 0x20, 0x61, 0x73,
  0x20, 0x6e, 0x6f, 0x2d, 0x62, 0x72, 0x65, 0x61, 0x6b, 0xc2, 0xa0, 0x73, 0x70, 0x61, 0x63, 0x65, 0x2c, 0xa, 0x6e, 0x6f, 0x6e, 0xe2, 0x80, 0x91,
  0x62, 0x72, 0x65, 0x61, 0x6b, 0x69, 0x6e, 0x67, 0x20, 0x68, 0x79, 0x70, 0x68, 0x65, 0x6e, 0x2c, 0x20, 0x6e, 0x6f, 0x2d, 0x62, 0x72, 0x65, 0x61,
  0x6b, 0xc2, 0xa0, 0x73, 0x70, 0x61, 0x63, 0x65, 0x2c, 0x20, 0x6e, 0x6f, 0x6e, 0xe2, 0x80, 0x91, 0x62, 0x72, 0x65, 0x61, 0x6b, 0x69, 0x6e, 0x67,
  0x20, 0x68, 0x79, 0x70, 0x68, 0x65, 0x6e, 0x2c, 0x20, 0x61, 0x6e, 0x64, 0xa, 0x73, 0x6f, 0x66, 0x74, 0xc2, 0xad, 0x68, 0x79, 0x70, 0x68, 0x65,
  0x6e, 0x2e, 0x20, 0x49, 0x74, 0x20, 0x69]

def sampleExample1 : List Nat := [
  0x6e, 0x63, 0x6c, 0x75, 0x64, 0x65, 0x73, 0x20, 0x74, 0x68, 0x65, 0x20, 0x67, 0x72, 0x61, 0x70, 0x68, 0x65, 0x6d, 0x65, 0x20, 0x63, 0x6f, 0x6e,
  0x74, 0x72, 0x6f, 0x6c, 0x20, 0x63, 0x6f, 0x6d, 0x62, 0x69, 0x6e, 0x69, 0x6e, 0x67, 0x20, 0x67, 0x72, 0x61, 0x70, 0x68, 0x65, 0x6d, 0x65, 0x20,
  0x6a, 0x6f, 0x69, 0x6e, 0x65, 0x72, 0xa, 0x28, 0x63, 0x6f, 0x6d, 0x70, 0x61, 0x72, 0x65, 0x20, 0x22, 0xc3, 0x9c, 0x22, 0x20, 0x77, 0x69, 0x74,
  0x68, 0x20, 0x22, 0x55, 0xcd, 0x8f, 0xcc, 0x88, 0x22, 0x29, 0x2c, 0x20, 0x7a, 0x65, 0x72, 0x6f, 0x2d, 0x77, 0x69, 0x74, 0x68, 0x20, 0x6e, 0x6f,
  0x6e, 0x2d, 0x6a, 0x6f, 0x69, 0x6e, 0x65, 0x72, 0x20, 0x28, 0x63, 0x6f, 0x6d, 0x70, 0x61, 0x72, 0x65, 0x20, 0x22, 0x64, 0x65, 0x61, 0x66, 0x6c,
  0x79, 0x22, 0x20, 0x77, 0x69, 0x74, 0x68, 0xa, 0x22, 0x64, 0x65, 0x61, 0x66, 0xe2, 0x80, 0x8c, 0x6c, 0x79, 0x22, 0x29, 0x2c, 0x20, 0x7a, 0x65,
  0x72, 0x6f, 0x20, 0x77, 0x69, 0x74, 0x68, 0x20, 0x6a, 0x6f, 0x69, 0x6e, 0x65, 0x72, 0x20, 0x28, 0x63, 0x6f, 0x6d, 0x70, 0x61, 0x72, 0x65, 0x20,
  0x22, 0xf0, 0x9f, 0x98, 0xb6, 0xe2, 0x80, 0x8d, 0xf0, 0x9f, 0x8c, 0xab, 0xef, 0xb8, 0x8f, 0x22, 0x20, 0x77, 0x69, 0x74, 0x68, 0x20, 0x22, 0xf0,
  0x9f, 0x98, 0xb6, 0xf0, 0x9f, 0x8c, 0xab, 0xef]

def sampleExample2 : List Nat := [
  0xb8, 0x8f, 0x22, 0x29, 0x2c, 0xa, 0x61, 0x6e, 0x64, 0x20, 0x77, 0x6f, 0x72, 0x64, 0x20, 0x6a, 0x6f, 0x69, 0x6e, 0xe2, 0x81, 0xa0, 0x65, 0x72,
  0x2e, 0x20, 0x41, 0x6e, 0x64, 0x20, 0x69, 0x74, 0x20, 0x69, 0x6e, 0x63, 0x6c, 0x75, 0x64, 0x65, 0x73, 0x20, 0x74, 0x68, 0x65, 0x20, 0x69, 0x6d,
  0x70, 0x6c, 0x69, 0x63, 0x69, 0x74, 0xe2, 0x80, 0x8e, 0x20, 0x64, 0x69, 0x72, 0x65, 0x63, 0x74, 0x69, 0x6f, 0x6e, 0x61, 0x6c, 0xe2, 0x80, 0x8f,
  0xa, 0x66, 0x6f, 0x72, 0x6d, 0x61, 0x74, 0x74, 0x69, 0x6e, 0x67, 0xd8, 0x9c, 0x20, 0x63, 0x68, 0x61, 0x72, 0x61, 0x63, 0x74, 0x65, 0x72, 0x73,
  0x20, 0x61, 0x6e, 0x64, 0x20, 0x74, 0x68, 0x65, 0x20, 0x72, 0x65, 0x70, 0x6c, 0x61, 0x63, 0x65, 0x6d, 0x65, 0x6e, 0x74, 0x20, 0x63, 0x68, 0x61,
  0x72, 0x61, 0x63, 0x74, 0x65, 0x72, 0x20, 0x28, 0xef, 0xbf, 0xbd, 0x29, 0x2e, 0x20, 0x41, 0x6e, 0x64, 0x20, 0x74, 0x68, 0x65, 0xa, 0x4d, 0x6f,
  0x6e, 0x67, 0x6f, 0x6c, 0x69, 0x61, 0x6e, 0x20, 0x76, 0x6f, 0x77, 0x65, 0x6c, 0x20, 0x73, 0x65, 0x70, 0x61, 0x72, 0x61, 0x74, 0x6f, 0x72, 0x20,
  0x28, 0x63, 0x6f, 0x6d, 0x70, 0x61, 0x72, 0x65, 0x20, 0x22, 0xe1, 0xa0, 0xaf, 0xe1, 0xa0, 0xa4, 0xe1, 0xa0, 0xad, 0xe1, 0xa0, 0x8e, 0xe1, 0xa0,
  0xa0, 0x22, 0x20, 0x77, 0x69, 0x74, 0x68, 0x20]

def sampleExample3 : List Nat := [
  0x22, 0xe1, 0xa0, 0xaf, 0xe1, 0xa0, 0xa4, 0xe1, 0xa0, 0xad, 0xe1, 0xa0, 0xa0, 0x22, 0x29, 0x2e, 0x20, 0x41, 0x6e, 0x64, 0x2c, 0x20, 0x6f, 0x66,
  0x20, 0x63, 0x6f, 0x75, 0x72, 0x73, 0x65, 0x2c, 0xa, 0x65, 0x6d, 0x6f, 0x6a, 0x69, 0x2c, 0x20, 0x62, 0x6f, 0x74, 0x68, 0x20, 0x42, 0x4d, 0x50,
  0x20, 0xe2, 0x98, 0xba, 0x20, 0x61, 0x6e, 0x64, 0x20, 0x6e, 0x6f, 0x6e, 0x2d, 0x42, 0x4d, 0x50, 0x20, 0xf0, 0x9f, 0x98, 0x80, 0x2e, 0xa, 0xa, 0x49,
  0x74, 0x20, 0x69, 0x6e, 0x63, 0x6c, 0x75, 0x64, 0x65, 0x73, 0x20, 0x61, 0x6c, 0x6c, 0x20, 0x6f, 0x66, 0x20, 0x74, 0x68, 0x65, 0x20, 0x70, 0x72,
  0x69, 0x76, 0x61, 0x74, 0x65, 0x20, 0x75, 0x73, 0x65, 0x20, 0x63, 0x68, 0x61, 0x72, 0x61, 0x63, 0x74, 0x65, 0x72, 0x73, 0x20, 0x28, 0x69, 0x6e,
  0x63, 0x6c, 0x75, 0x64, 0x69, 0x6e, 0x67, 0x20, 0xf4, 0x8f, 0xbf, 0xbd, 0x29, 0x2c, 0x20, 0x63, 0x68, 0x61, 0x72, 0x61, 0x63, 0x74, 0x65, 0x72,
  0x73, 0xa, 0x77, 0x69, 0x74, 0x68, 0x20, 0x63, 0x6f, 0x6d, 0x70, 0x6c, 0x65, 0x78, 0x20, 0x64, 0x65, 0x63, 0x6f, 0x6d, 0x70, 0x6f, 0x73, 0x69,
  0x74, 0x69, 0x6f, 0x6e, 0x73, 0x20, 0x28, 0x73, 0x75, 0x63, 0x68, 0x20, 0x61, 0x73, 0x20, 0xef, 0xb7, 0xba, 0x29, 0x2c, 0x20, 0x61, 0x6e, 0x64,
  0x20, 0x63, 0x68, 0x61, 0x72, 0x61, 0x63]

def sampleExample4 : List Nat := [
  0x74, 0x65, 0x72, 0x73, 0x20, 0x77, 0x69, 0x74, 0x68, 0x20, 0x6e, 0x6f, 0xe2, 0xa0, 0x80, 0x76, 0x69, 0x73, 0x69, 0x62, 0x6c, 0x65, 0xa, 0x64,
  0x69, 0x73, 0x70, 0x6c, 0x61, 0x79, 0x2e, 0xa, 0xa, 0x49, 0x74, 0x20, 0x75, 0x73, 0x65, 0x73, 0x20, 0x76, 0x61, 0x72, 0x69, 0x61, 0x74, 0x69, 0x6f,
  0x6e, 0x20, 0x73, 0x65, 0x71, 0x75, 0x65, 0x6e, 0x63, 0x65, 0x73, 0x20, 0x74, 0x6f, 0x20, 0x70, 0x72, 0x65, 0x73, 0x65, 0x72, 0x76, 0x65, 0x20,
  0x74, 0x68, 0x65, 0x20, 0x69, 0x6e, 0x74, 0x65, 0x6e, 0x74, 0x20, 0x6f, 0x66, 0x20, 0xa, 0x43, 0x4a, 0x4b, 0x20, 0x63, 0x6f, 0x6d, 0x70, 0x61,
  0x74, 0x69, 0x62, 0x69, 0x6c, 0x69, 0x74, 0x79, 0x20, 0x69, 0x64, 0x65, 0x6f, 0x67, 0x72, 0x61, 0x70, 0x68, 0x73, 0x20, 0x28, 0x63, 0x6f, 0x6d,
  0x70, 0x61, 0x72, 0x65, 0x20, 0xe6, 0x85, 0x88, 0x20, 0x77, 0x69, 0x74, 0x68, 0x20, 0xe6, 0x85, 0x88, 0xef, 0xb8, 0x80, 0x29, 0x2e, 0xa, 0xa, 0xd9,
  0x8a, 0xd8, 0xaa, 0xd8, 0xb6, 0xd9, 0x85, 0xd9, 0x86, 0x20, 0xd9, 0x86, 0xd8, 0xb5, 0xd9, 0x8b, 0xd8, 0xa7, 0x20, 0xd9, 0x85, 0xd9, 0x86, 0x20,
  0xd8, 0xa7, 0xd9, 0x84, 0xd9, 0x8a, 0xd9, 0x85, 0xd9, 0x8a, 0xd9, 0x86, 0x20, 0xd8, 0xa5, 0xd9, 0x84, 0xd9, 0x89, 0x20, 0xd8, 0xa7, 0xd9, 0x84,
  0xd9, 0x8a, 0xd8, 0xb3, 0xd8, 0xa7]

def sampleExample5 : List Nat := [
  0xd8, 0xb1, 0x2e, 0xa, 0xa, 0x5a, 0xcc, 0x9b, 0xcc, 0x96, 0xcc, 0x97, 0xcc, 0x98, 0xcc, 0x99, 0xcc, 0x9c, 0xcc, 0x9d, 0xcc, 0x80, 0xcc, 0x81, 0xcc,
  0x82, 0xcc, 0x83, 0xcc, 0x84, 0xcc, 0x85, 0xcc, 0x86, 0xcc, 0x87, 0xcc, 0x88, 0xcc, 0x89, 0xcc, 0x8a, 0xcc, 0x8b, 0xcc, 0x8c, 0xcc, 0x8d, 0xcc,
  0x8e, 0xcc, 0x8f, 0xcc, 0x90, 0xcc, 0x91, 0xcc, 0x92, 0xcc, 0x93, 0xcc, 0x94, 0xcc, 0x95, 0xcc, 0x9a, 0x61, 0xcc, 0xb4, 0xcc, 0xb5, 0xcc, 0xb6,
  0xcc, 0xb7, 0xcc, 0xb8, 0xcc, 0xa1, 0xcc, 0xa2, 0xcc, 0xa7, 0xcc, 0xa8, 0xcc, 0x9f, 0xcc, 0xa0, 0xcc, 0xa3, 0xcc, 0xa4, 0xcc, 0xa5, 0xcc, 0xa6,
  0xcc, 0xa9, 0xcc, 0xaa, 0xcc, 0xab, 0xcc, 0xac, 0xcc, 0xad, 0xcc, 0xae, 0xcc, 0xaf, 0xcc, 0xb0, 0xcc, 0xb1, 0xcc, 0xb2, 0xcc, 0xb3, 0xcc, 0xb9,
  0xcc, 0xba, 0xcc, 0xbb, 0xcc, 0xbc, 0x6c, 0xcd, 0x87, 0xcd, 0x88, 0xcd, 0x89, 0xcd, 0x8d, 0xcd, 0x8e, 0xcd, 0x93, 0xcd, 0x94, 0xcd, 0x95, 0xcd,
  0x96, 0xcd, 0x99, 0xcd, 0x9a, 0xcc, 0xbe, 0xcc, 0xbf, 0xcd, 0x82, 0xcd, 0x86, 0xcd, 0x8a, 0xcd, 0x8b, 0xcd, 0x8c, 0xcd, 0x90, 0xcd, 0x91, 0xcd,
  0x92, 0xcd, 0x97, 0xcd, 0x9b, 0xcd, 0x98, 0xcd, 0x9c, 0xcd, 0x9f, 0xcd, 0x9d, 0xcd, 0x9e, 0xcd, 0xa0, 0xcd, 0x85, 0x67, 0xf0, 0x9e, 0x80, 0x80,
  0xf0, 0x9e, 0x80, 0x81, 0xf0, 0x9e, 0x80]

def sampleExample6 : List Nat := [
  0x82, 0xf0, 0x9e, 0x80, 0x83, 0xf0, 0x9e, 0x80, 0x84, 0xf0, 0x9e, 0x80, 0x85, 0xf0, 0x9e, 0x80, 0x86, 0xf0, 0x9e, 0x80, 0x88, 0xf0, 0x9e, 0x80,
  0x89, 0xf0, 0x9e, 0x80, 0x8a, 0xf0, 0x9e, 0x80, 0x8b, 0xf0, 0x9e, 0x80, 0x8c, 0xf0, 0x9e, 0x80, 0x8d, 0xf0, 0x9e, 0x80, 0x8e, 0xf0, 0x9e, 0x80,
  0x8f, 0xf0, 0x9e, 0x80, 0x90, 0xf0, 0x9e, 0x80, 0x91, 0xf0, 0x9e, 0x80, 0x92, 0xf0, 0x9e, 0x80, 0x93, 0xf0, 0x9e, 0x80, 0x94, 0xf0, 0x9e, 0x80,
  0x95, 0xf0, 0x9e, 0x80, 0x96, 0xf0, 0x9e, 0x80, 0x97, 0xf0, 0x9e, 0x80, 0x98, 0xf0, 0x9e, 0x80, 0x9b, 0xf0, 0x9e, 0x80, 0x9c, 0xf0, 0x9e, 0x80,
  0x9d, 0xf0, 0x9e, 0x80, 0x9e, 0xf0, 0x9e, 0x80, 0x9f, 0xf0, 0x9e, 0x80, 0xa0, 0x6f, 0xe0, 0xa3, 0x94, 0xe0, 0xa3, 0x95, 0xe0, 0xa3, 0x96, 0xe0,
  0xa3, 0x97, 0xe0, 0xa3, 0x98, 0xe0, 0xa3, 0x99, 0xe0, 0xa3, 0x9a, 0xe0, 0xa3, 0x9b, 0xe0, 0xa3, 0x9c, 0xe0, 0xa3, 0x9d, 0xe0, 0xa3, 0x9e, 0xe0,
  0xa3, 0x9f, 0xe0, 0xa3, 0xa0, 0xe0, 0xa3, 0xa1, 0xe0, 0xa3, 0xa4, 0xe0, 0xa3, 0xa5, 0xe0, 0xa3, 0xa7, 0xe0, 0xa3, 0xa8, 0xe0, 0xa3, 0xaa, 0xe0,
  0xa3, 0xab, 0xe0, 0xa3, 0xac, 0xe0, 0xa3, 0xb3, 0xe0, 0xa3, 0xb4, 0xe0, 0xa3, 0xb5, 0xe0, 0xa3, 0xb7, 0xe0, 0xa3, 0xb8, 0xe0, 0xa3, 0xbb, 0xe0,
  0xa3, 0xbc, 0xe0, 0xa3, 0xbd, 0xe0, 0xa3, 0xbe]

def sampleExample7 : List Nat := [
  0x2c, 0x20, 0x75, 0x70, 0x20, 0x74, 0x6f, 0x20, 0x53, 0x74, 0x72, 0x65, 0x61, 0x6d, 0x2d, 0x53, 0x61, 0x66, 0x65, 0x20, 0x6c, 0x69, 0x6d, 0x69,
  0x74, 0x73, 0x2e, 0xa, 0xa, 0x41, 0x6e, 0x64, 0x20, 0x6f, 0x66, 0x20, 0x63, 0x6f, 0x75, 0x72, 0x73, 0x65, 0x20, 0x61, 0x6c, 0x6c, 0x20, 0x74, 0x68,
  0x65, 0x20, 0x72, 0x65, 0x73, 0x74, 0x20, 0x6f, 0x66, 0x20, 0x64, 0x69, 0x73, 0x70, 0x6c, 0x61, 0x79, 0x61, 0x62, 0x6c, 0x65, 0x20, 0x55, 0x6e,
  0x69, 0x63, 0x6f, 0x64, 0x65, 0x2c, 0x20, 0x69, 0x6e, 0x63, 0x6c, 0x75, 0x64, 0x69, 0x6e, 0x67, 0x3a, 0xa, 0x20, 0x2d, 0x20, 0xe5, 0xbd, 0x81,
  0xf0, 0x9f, 0x92, 0x83, 0xe0, 0xbd, 0xa7, 0xf0, 0x91, 0x8b, 0xb0, 0xe0, 0xbe, 0x90, 0xe0, 0xbe, 0xb5, 0xe0, 0xbe, 0xa8, 0xe0, 0xbe, 0xb3, 0xe0,
  0xbe, 0xba, 0xe0, 0xbe, 0xbc, 0xe0, 0xbe, 0xbb, 0xe0, 0xbe, 0x82, 0xf0, 0x9f, 0x8e, 0x88, 0xf0, 0x9f, 0x90, 0x9e, 0xf0, 0x9f, 0x91, 0xa9, 0xe2,
  0x80, 0x8d, 0xe2, 0x9d, 0xa4, 0xef, 0xb8, 0x8f, 0xe2, 0x80, 0x8d, 0xf0, 0x9f, 0x92, 0x8b, 0xe2, 0x80, 0x8d, 0xf0, 0x9f, 0x91, 0xa8, 0xf0, 0x9f,
  0x8e, 0x92, 0xf0, 0x9f, 0xa4, 0xb9, 0xf0, 0x9f, 0x8f, 0xbe, 0xe2, 0x80, 0x8d, 0xe2, 0x99, 0x80, 0xef, 0xb8, 0x8f, 0xe2, 0x97, 0xaf, 0xe2, 0x80,
  0x8d, 0xe2, 0x97, 0xaf, 0xe2, 0x80, 0x8d]

def sampleExample8 : List Nat := [
  0xe2, 0x97, 0xaf, 0xe2, 0x80, 0x8d, 0xe2, 0x97, 0xaf, 0xe2, 0x80, 0x8d, 0xe2, 0x97, 0xaf, 0xf0, 0x9f, 0xa4, 0xbe, 0xf0, 0x9f, 0x8f, 0xbc, 0xe2,
  0x80, 0x8d, 0xe2, 0x99, 0x82, 0xef, 0xb8, 0x8f, 0xf0, 0x92, 0x90, 0xab, 0xf0, 0x9f, 0x91, 0xaf, 0xf0, 0x9f, 0x8f, 0xbe, 0xe2, 0x80, 0x8d, 0xe2,
  0x99, 0x80, 0xef, 0xb8, 0x8f, 0xf0, 0x92, 0x88, 0x99, 0xf0, 0x9f, 0xa4, 0xb8, 0xf0, 0x9f, 0x8f, 0xbd, 0xe2, 0x80, 0x8d, 0xe2, 0x99, 0x82, 0xef,
  0xb8, 0x8f, 0xe2, 0xb8, 0xbb, 0xf0, 0x9f, 0x9a, 0xb5, 0xf0, 0x9f, 0x8f, 0xbf, 0xe2, 0x80, 0x8d, 0xe2, 0x99, 0x80, 0xef, 0xb8, 0x8f, 0xf0, 0x9f,
  0x8f, 0x8b, 0xf0, 0x9f, 0x8f, 0xbb, 0xe2, 0x80, 0x8d, 0xe2, 0x99, 0x80, 0xef, 0xb8, 0x8f, 0x20, 0xea, 0xa7, 0x85, 0xf0, 0x9f, 0x92, 0x87, 0xf0,
  0x9f, 0x8f, 0xbe, 0xe2, 0x80, 0x8d, 0xe2, 0x99, 0x82, 0xef, 0xb8, 0x8f, 0xf0, 0x9f, 0x91, 0x81, 0xef, 0xb8, 0x8f, 0xe2, 0x80, 0x8d, 0xf0, 0x9f,
  0x97, 0xa8, 0xef, 0xb8, 0x8f, 0xe2, 0x80, 0xb1, 0xf0, 0xaa, 0x9a, 0xa5, 0xef, 0xb7, 0xbd, 0xe2, 0x99, 0x9c, 0xe2, 0x9a, 0x85, 0xe2, 0x99, 0xa0,
  0xe2, 0x9b, 0x83, 0xe2, 0x98, 0x97, 0xf0, 0x9f, 0x82, 0xb1, 0xf0, 0x9f, 0x82, 0x93, 0xf0, 0x9f, 0x80, 0xa1, 0xf0, 0x9f, 0x83, 0x8f, 0xe2, 0x96,
  0xa1, 0xf0, 0x9f, 0x8e, 0xb5, 0xf0, 0x9f, 0x92]

def sampleExample9 : List Nat := [
  0xab, 0xf0, 0x9f, 0x8e, 0x8d, 0xf0, 0x9f, 0x90, 0xb1, 0xe2, 0x80, 0x8d, 0xf0, 0x9f, 0x8f, 0x8d, 0xa, 0x20, 0x2d, 0x20, 0xe2, 0x96, 0x81, 0xe2,
  0x96, 0x82, 0xe2, 0x96, 0x83, 0xe2, 0x96, 0x84, 0xe2, 0x96, 0x85, 0xe2, 0x96, 0x86, 0xe2, 0x96, 0x87, 0xe2, 0x94, 0x8c, 0xe2, 0x94, 0x80, 0xe2,
  0x94, 0xac, 0xe2, 0x94, 0x90, 0xe2, 0x94, 0x94, 0xe2, 0x94, 0x80, 0xe2, 0x94, 0xb4, 0xe2, 0x94, 0x98, 0xf0, 0x9f, 0x8c, 0xb7, 0xf0, 0x9f, 0x8c,
  0x9e, 0xe2, 0x87, 0x9e, 0xf0, 0x9d, 0x94, 0x99, 0xe2, 0xa0, 0xbc, 0xf0, 0x93, 0x84, 0x91, 0xd6, 0x8d, 0xc2, 0xa6, 0xd0, 0xb4, 0xf0, 0x9f, 0x8e,
  0xb2, 0xe1, 0x90, 0x9b, 0xda, 0x9c, 0xf0, 0x9f, 0x8d, 0x85, 0xf0, 0x9f, 0xa2, 0xaa, 0xe2, 0x80, 0xbd, 0xe2, 0xa4, 0xba, 0xe2, 0xb2, 0xa8, 0xe2,
  0x8a, 0x89, 0xe2, 0xa5, 0xa9, 0xe2, 0xaa, 0x92, 0xe2, 0x9f, 0x8f, 0xe2, 0xae, 0x80, 0xe2, 0x9c, 0xb4, 0xe2, 0x99, 0xaf, 0xe2, 0x95, 0x85, 0xe2,
  0x97, 0x83, 0xe2, 0xaf, 0xa7, 0xe2, 0xa4, 0x9e, 0xe2, 0x8f, 0xab, 0xe2, 0x8f, 0x89, 0xe2, 0x85, 0xbb, 0xe2, 0x9c, 0xad, 0xe2, 0xb9, 0x94, 0xe2,
  0x9a, 0xb0, 0xe2, 0x83, 0x92, 0xe2, 0x92, 0x9b, 0xe2, 0x83, 0xad, 0xe2, 0x99, 0xac, 0xe2, 0xa2, 0x88, 0xe2, 0xb5, 0xaa, 0xe2, 0xa1, 0xa9, 0xe2,
  0xb8, 0xb9, 0xe2, 0x83, 0xbc, 0xe2, 0xa4, 0xb1]

def sampleExample10 : List Nat := [
  0xe2, 0x91, 0x94, 0xe2, 0xa9, 0xbb, 0xe2, 0xaa, 0x9f, 0xe2, 0xa4, 0x9c, 0xe2, 0xa5, 0x90, 0xe2, 0xa7, 0xaf, 0xe2, 0x9e, 0xb3, 0xe2, 0x87, 0xab,
  0xe2, 0xb0, 0x9e, 0xe2, 0xbb, 0x88, 0xe2, 0xb4, 0x9a, 0xe2, 0x96, 0x85, 0xe2, 0x90, 0xbf, 0xe2, 0xaf, 0xba, 0xe2, 0x96, 0x9a, 0xe2, 0x86, 0xa4,
  0xe2, 0x8b, 0xac, 0xe2, 0xa1, 0x85, 0xe2, 0x8c, 0x92, 0xe2, 0x81, 0x9e, 0xe2, 0x98, 0x99, 0xf0, 0x9f, 0xa7, 0xb8, 0xa, 0x20, 0x2d, 0x20, 0x30,
  0x5f, 0x24, 0x7e, 0x21, 0x40, 0x23, 0x24, 0x25, 0x5e, 0x26, 0x2a, 0x28, 0x29, 0x5f, 0x2b, 0x60, 0x2d, 0x3d, 0x7b, 0x7d, 0x7c, 0x5b, 0x5d, 0x5c,
  0x3a, 0x22, 0x3b, 0x27, 0x3c, 0x3e, 0x3f, 0x2c, 0x2e, 0x2f, 0x20, 0xa, 0x20, 0x2d, 0x20, 0xe2, 0x90, 0x80, 0xe2, 0x90, 0x81, 0xe2, 0x90, 0x82,
  0xe2, 0x90, 0x83, 0xe2, 0x90, 0x84, 0xe2, 0x90, 0x85, 0xe2, 0x90, 0x86, 0xe2, 0x90, 0x87, 0xe2, 0x90, 0x88, 0xe2, 0x90, 0x89, 0xe2, 0x90, 0x8a,
  0xe2, 0x90, 0x8b, 0xe2, 0x90, 0x8c, 0xe2, 0x90, 0x8d, 0xe2, 0x90, 0x8e, 0xe2, 0x90, 0x8f, 0xe2, 0x90, 0x90, 0xe2, 0x90, 0x91, 0xe2, 0x90, 0x92,
  0xe2, 0x90, 0x93, 0xe2, 0x90, 0x94, 0xe2, 0x90, 0x95, 0xe2, 0x90, 0x96, 0xe2, 0x90, 0x97, 0xe2, 0x90, 0x98, 0xe2, 0x90, 0x99, 0xe2, 0x90, 0x9a,
  0xe2, 0x90, 0x9b, 0xe2, 0x90, 0x9c, 0xe2, 0x90]

def sampleExample11 : List Nat := [
  0x9d, 0xe2, 0x90, 0x9e, 0xe2, 0x90, 0x9f, 0xe2, 0x90, 0xa0, 0xe2, 0x90, 0xa1, 0xef, 0xbf, 0xb0, 0xef, 0xbf, 0xb1, 0xef, 0xbf, 0xb2, 0xef, 0xbf,
  0xb3, 0xef, 0xbf, 0xb4, 0xef, 0xbf, 0xb5, 0xef, 0xbf, 0xb6, 0xef, 0xbf, 0xb7, 0xef, 0xbf, 0xb8, 0x20, 0xcd, 0x8f, 0xe2, 0x81, 0xa0, 0x20, 0xe2,
  0xb5, 0xbf, 0x20, 0xf0, 0x91, 0x81, 0xbf, 0xef, 0xbf, 0xaf, 0xc2, 0xa0, 0xc2, 0xad, 0xe2, 0x81, 0xa0, 0xe1, 0x9a, 0x80, 0xe2, 0x80, 0x91, 0x20,
  0x20, 0xe2, 0x80, 0xaf, 0xe2, 0x81, 0xa1, 0xe2, 0x81, 0xa2, 0xe2, 0x81, 0xa3, 0xe2, 0x81, 0xa4, 0x5a, 0xcc, 0xb4, 0xcd, 0x87, 0xcc, 0xab, 0xcc,
  0xa5, 0xcc, 0xaa, 0xcd, 0x93, 0xcd, 0x88, 0xcd, 0x94, 0xcd, 0x8e, 0xcc, 0x97, 0xcc, 0x9e, 0xcc, 0xba, 0xcc, 0xaf, 0xcc, 0xb1, 0xcc, 0x9e, 0xcc,
  0x99, 0xcc, 0xb1, 0xcc, 0x9c, 0xcc, 0x96, 0xcc, 0xa0, 0xcc, 0x8f, 0xcd, 0x86, 0xcc, 0x86, 0xcd, 0x9b, 0xcd, 0x8c, 0xcd, 0x98, 0xcd, 0x9e, 0xe1,
  0xb8, 0x81, 0xcc, 0xb6, 0xcc, 0xb0, 0xcc, 0xb3, 0xcc, 0xad, 0xcd, 0x99, 0xcc, 0xb2, 0xcc, 0xb1, 0xcc, 0xb9, 0xcc, 0x9d, 0xcd, 0x8e, 0xcc, 0xbc,
  0xcd, 0x97, 0xcd, 0xa8, 0xcc, 0x8e, 0xcc, 0x84, 0xcc, 0x86, 0xcd, 0x97, 0xcc, 0xbf, 0xcc, 0x80, 0xcc, 0x81, 0xcd, 0x9f, 0xcd, 0xa1, 0x6c, 0xcc,
  0xb6, 0xcc, 0xb7, 0xcd, 0x89, 0xcc, 0xa9, 0xcc]

def sampleExample12 : List Nat := [
  0xb9, 0xcc, 0xab, 0xcc, 0x9d, 0xcd, 0x96, 0xcc, 0x99, 0xcc, 0xb2, 0xcc, 0xbc, 0xcd, 0x87, 0xcd, 0x9a, 0xcd, 0x8d, 0xcc, 0xae, 0xcd, 0x8e, 0xcc,
  0xa5, 0xcc, 0x9e, 0xcc, 0x88, 0xcc, 0x81, 0xcd, 0x8a, 0xcd, 0x97, 0xcd, 0xa6, 0xcc, 0x88, 0xcc, 0x81, 0xcd, 0xab, 0xcc, 0x87, 0xcc, 0x81, 0xcc,
  0x9a, 0xcd, 0x85, 0xcd, 0x8f, 0xcd, 0x85, 0x67, 0xcc, 0xb6, 0xcd, 0x95, 0xcd, 0x94, 0xcd, 0x9a, 0xcc, 0xa9, 0xcc, 0x93, 0xcc, 0x90, 0xcc, 0x85,
  0xcd, 0xae, 0xcc, 0x94, 0xcc, 0x90, 0xcc, 0x8e, 0xcc, 0x82, 0xcc, 0x8f, 0xcc, 0xbe, 0xcd, 0x8a, 0xcc, 0x8d, 0xcd, 0x8b, 0xcd, 0x8a, 0xcd, 0xa7,
  0xcc, 0x81, 0xcc, 0x86, 0xcd, 0xa6, 0xcd, 0x9e, 0x6f, 0xcc, 0xa1, 0xcd, 0x8b, 0xcc, 0x94, 0xcd, 0x90, 0xcd, 0xaa, 0xcd, 0xa9, 0xcd, 0x8f, 0xcc,
  0xa2, 0xcc, 0xa7, 0xcc, 0xab, 0xcc, 0x99, 0xcc, 0xa4, 0xcc, 0xae, 0xcd, 0x96, 0xcd, 0x99, 0xcd, 0x93, 0xcc, 0xba, 0xcc, 0x9c, 0xcc, 0xa9, 0xcc,
  0xbc, 0xcc, 0x98, 0xcc, 0xa0, 0xcc, 0x81, 0xe1, 0x85, 0x9f, 0xe1, 0x85, 0xa0, 0xe3, 0x85, 0xa4, 0xef, 0xbe, 0xa0, 0x20, 0xef, 0xb8, 0x80, 0x20,
  0xef, 0xb8, 0x84, 0x20, 0xf3, 0xa0, 0x84, 0x80, 0x20, 0xf3, 0xa0, 0x87, 0xaf, 0x20, 0xcc, 0x88, 0xe2, 0x90, 0xa4, 0x20, 0x20, 0xe2, 0x80, 0xa6,
  0xe2, 0x8f, 0x8e, 0xe2, 0x86, 0xb5, 0xe2, 0x86]

def sampleExample13 : List Nat := [
  0xa9, 0xe2, 0x8c, 0xa4, 0xe2, 0xa4, 0xb6, 0xe2, 0x86, 0xb2, 0xe2, 0xae, 0xa8, 0xe2, 0xae, 0xb0, 0x20, 0xcc, 0x88, 0xe2, 0x80, 0xbd, 0xcc, 0x88,
  0xcc, 0x89, 0xa, 0x20, 0x2d, 0x20, 0x61, 0x41, 0xe2, 0x81, 0xa0, 0xc3, 0x85, 0xc3, 0x85, 0xf0, 0x9d, 0x91, 0xa8, 0xf0, 0x9d, 0x90, 0xb4, 0xf0,
  0x9d, 0x98, 0x88, 0xf0, 0x9d, 0x98, 0xbc, 0xf0, 0x9d, 0x90, 0x80, 0xf0, 0x9d, 0x93, 0x90, 0xf0, 0x9d, 0x95, 0xac, 0xf0, 0x9d, 0x97, 0x94, 0xf0,
  0x9d, 0x92, 0x9c, 0xf0, 0x9d, 0x94, 0x84, 0xf0, 0x9d, 0x94, 0xb8, 0xf0, 0x9d, 0x96, 0xa0, 0xf0, 0x9d, 0x99, 0xb0, 0xe1, 0xb4, 0x80, 0xe1, 0xb4,
  0xac, 0xe2, 0x92, 0xb6, 0xef, 0xbc, 0xa1, 0xf0, 0x9f, 0x84, 0x90, 0xf0, 0x9f, 0x84, 0xb0, 0x41, 0xd0, 0x90, 0xea, 0x99, 0x96, 0x20, 0xe2, 0xb7,
  0xbc, 0x20, 0xe2, 0xb7, 0xb6, 0xe2, 0xb1, 0xaf, 0xf0, 0x9f, 0x85, 0x90, 0xf0, 0x9f, 0x85, 0xb0, 0xe2, 0xb0, 0xad, 0xf0, 0x90, 0x90, 0x82, 0xf0,
  0x90, 0x90, 0x88, 0xf0, 0x90, 0x92, 0xb0, 0xc3, 0x80, 0xc3, 0x81, 0xc3, 0x82, 0xc3, 0x83, 0xc3, 0x84, 0xc4, 0x80, 0xc4, 0x82, 0xc4, 0x84, 0xc7,
  0x8d, 0xc7, 0x9e, 0xc7, 0xa0, 0xc7, 0xba, 0xc8, 0x80, 0xc8, 0x82, 0xc8, 0xa6, 0xc8, 0xba, 0xd3, 0x90, 0xd3, 0x92, 0xdf, 0x8a, 0x20, 0xe0, 0xa0,
  0xa1, 0x20, 0xe0, 0xa0, 0xa2, 0x20, 0xe0, 0xa0]

def sampleExample14 : List Nat := [
  0xa3, 0xe0, 0xa0, 0xa4, 0x20, 0xe0, 0xa0, 0xa5, 0xe0, 0xa4, 0x84, 0xe0, 0xa4, 0x85, 0xe0, 0xa5, 0xb2, 0xe0, 0xa6, 0x85, 0xe0, 0xa8, 0x85, 0xe0,
  0xaa, 0x85, 0xe0, 0xac, 0x85, 0xe0, 0xae, 0x85, 0xe0, 0xb0, 0x85, 0xe0, 0xb2, 0x85, 0xe0, 0xb4, 0x85, 0xe0, 0xb8, 0xb0, 0xe0, 0xba, 0xb0, 0xe0,
  0xbc, 0x81, 0xe0, 0xbd, 0xa8, 0x20, 0xe0, 0xbe, 0xb8, 0xe1, 0x80, 0xa1, 0xe1, 0x80, 0xa2, 0x20, 0xe1, 0x82, 0x9c, 0xe1, 0x85, 0xa1, 0xe1, 0x8a,
  0xa0, 0xe1, 0x8b, 0x90, 0xe1, 0x8e, 0xa0, 0xe1, 0x90, 0x8a, 0xe1, 0x96, 0xb3, 0xe1, 0x9a, 0xa8, 0xe1, 0x9a, 0xaa, 0xe1, 0x9b, 0x86, 0xe1, 0x9c,
  0x80, 0xe1, 0x9c, 0xa0, 0xe1, 0x9d, 0x80, 0xe1, 0x9d, 0xa0, 0xe1, 0xa0, 0xa0, 0xe1, 0xa2, 0x87, 0x20, 0xe1, 0xa4, 0xa0, 0xe1, 0xa5, 0xa3, 0xe1,
  0xa8, 0x95, 0xe1, 0xa9, 0x8b, 0x20, 0xe1, 0xa9, 0xa1, 0xe1, 0xae, 0x83, 0xe1, 0xaf, 0x80, 0xe1, 0xaf, 0x81, 0xe1, 0xb0, 0xa3, 0xe1, 0xb8, 0x80,
  0xe1, 0xba, 0xa0, 0xe1, 0xba, 0xa2, 0xe1, 0xba, 0xa4, 0xe1, 0xba, 0xa6, 0xe1, 0xba, 0xa8, 0xe1, 0xba, 0xaa, 0xe1, 0xba, 0xac, 0xe1, 0xba, 0xae,
  0xe1, 0xba, 0xb0, 0xe1, 0xba, 0xb2, 0xe1, 0xba, 0xb4, 0xe1, 0xba, 0xb6, 0xe3, 0x81, 0x82, 0xe3, 0x82, 0xa2, 0xe3, 0x84, 0x9a, 0xe3, 0x85, 0x8f,
  0xe3, 0x88, 0x8e, 0xe3, 0x88, 0x8f, 0xe3, 0x88]

def sampleExample15 : List Nat := [
  0x90, 0xe3, 0x88, 0x91, 0xe3, 0x88, 0x92, 0xe3, 0x88, 0x93, 0xe3, 0x88, 0x94, 0xe3, 0x88, 0x95, 0xe3, 0x88, 0x96, 0xe3, 0x88, 0x97, 0xe3, 0x88,
  0x98, 0xe3, 0x88, 0x99, 0xe3, 0x88, 0x9a, 0xe3, 0x88, 0x9b, 0xe3, 0x89, 0xae, 0xe3, 0x89, 0xaf, 0xe3, 0x89, 0xb0, 0xe3, 0x89, 0xb1, 0xe3, 0x89,
  0xb2, 0xe3, 0x89, 0xb3, 0xe3, 0x89, 0xb4, 0xe3, 0x89, 0xb5, 0xe3, 0x89, 0xb6, 0xe3, 0x89, 0xb7, 0xe3, 0x89, 0xb8, 0xe3, 0x89, 0xb9, 0xe3, 0x89,
  0xba, 0xe3, 0x89, 0xbb, 0xe3, 0x8b, 0x90, 0xea, 0x80, 0x8a, 0xea, 0x93, 0xae, 0xea, 0x95, 0x89, 0xea, 0x9a, 0xa0, 0xea, 0xa0, 0x80, 0x20, 0xea,
  0xa0, 0xa3, 0xea, 0xa1, 0x9d, 0xea, 0xa2, 0x82, 0x20, 0xea, 0xa3, 0xaa, 0xea, 0xa4, 0xa2, 0xea, 0xa5, 0x86, 0xea, 0xa6, 0x84, 0xea, 0xa8, 0x80,
  0xef, 0xbd, 0xb1, 0xef, 0xbf, 0x82, 0xf0, 0x90, 0x80, 0x80, 0xf0, 0x90, 0x8a, 0x80, 0xf0, 0x90, 0x8a, 0xa0, 0xf0, 0x90, 0x8c, 0x80, 0xf0, 0x90,
  0x8e, 0xa0, 0xf0, 0x90, 0x92, 0x96, 0xf0, 0x90, 0x94, 0x80, 0xf0, 0x90, 0x9d, 0x80, 0xf0, 0x90, 0xa0, 0x80, 0xf0, 0x90, 0xa4, 0xa0, 0xf0, 0x90,
  0xa6, 0x80, 0xf0, 0x90, 0xa6, 0xa0, 0xf0, 0x90, 0xa8, 0x80, 0xf0, 0x90, 0xac, 0x80, 0xf0, 0x90, 0xb0, 0x80, 0xf0, 0x90, 0xb0, 0x81, 0xf0, 0x90,
  0xb2, 0x80, 0xf0, 0x91, 0x80, 0x85, 0xf0, 0x91]

def sampleExample16 : List Nat := [
  0x82, 0x83, 0x20, 0xf0, 0x91, 0x84, 0xa7, 0xf0, 0x91, 0x85, 0x90, 0xf0, 0x91, 0x86, 0x83, 0xf0, 0x91, 0x88, 0x80, 0xf0, 0x91, 0x8a, 0x80, 0xf0,
  0x91, 0x8a, 0xb0, 0xf0, 0x91, 0x8c, 0x85, 0x20, 0xf0, 0x91, 0x8d, 0xb0, 0xf0, 0x91, 0x90, 0x80, 0xf0, 0x91, 0x92, 0x81, 0xf0, 0x91, 0x96, 0x80,
  0xf0, 0x91, 0x98, 0x80, 0xf0, 0x91, 0x9a, 0x80, 0xf0, 0x91, 0x9c, 0x92, 0x20, 0xf0, 0x91, 0x9c, 0xa0, 0xf0, 0x91, 0xa2, 0xa1, 0xf0, 0x91, 0xab,
  0x95, 0xf0, 0x91, 0xb0, 0x80, 0xf0, 0x91, 0xb2, 0x8f, 0x20, 0xf0, 0x91, 0xb2, 0xaf, 0xf0, 0x92, 0x80, 0x80, 0xf0, 0x96, 0xa7, 0x95, 0xf0, 0x96,
  0xa9, 0x86, 0xf0, 0x96, 0xab, 0xa7, 0x20, 0xf0, 0x96, 0xbd, 0x94, 0xf0, 0x9b, 0xb1, 0x81, 0xf0, 0x9b, 0xb1, 0xa4, 0xf0, 0x9e, 0xa0, 0xa3, 0xf0,
  0x9f, 0x87, 0xa6, 0xe2, 0xb1, 0xad, 0xce, 0x9b, 0xe2, 0xb1, 0xb0, 0xc2, 0xaa, 0xe2, 0x88, 0x80, 0xe2, 0x82, 0xb3, 0xf0, 0x90, 0xa4, 0x80, 0xe2,
  0xb2, 0x80, 0xf0, 0x90, 0x8c, 0xb0, 0xce, 0x86, 0xce, 0x91, 0xe1, 0xbc, 0x88, 0xe1, 0xbc, 0x89, 0xe1, 0xbc, 0x8a, 0xe1, 0xbc, 0x8b, 0xe1, 0xbc,
  0x8c, 0xe1, 0xbc, 0x8d, 0xe1, 0xbc, 0x8e, 0xe1, 0xbc, 0x8f, 0xe1, 0xbe, 0x88, 0xe1, 0xbe, 0x89, 0xe1, 0xbe, 0x8a, 0xe1, 0xbe, 0x8b, 0xe1, 0xbe,
  0x8c, 0xe1, 0xbe, 0x8d, 0xe1, 0xbe, 0x8e, 0xe1]

def sampleExample17 : List Nat := [
  0xbe, 0x8f, 0xe1, 0xbe, 0xb8, 0xe1, 0xbe, 0xb9, 0xe1, 0xbe, 0xba, 0xe1, 0xbe, 0xbc, 0xf0, 0x9d, 0x9a, 0xa8, 0xf0, 0x9d, 0x9b, 0xa2, 0xf0, 0x9d,
  0x9c, 0x9c, 0xf0, 0x9d, 0x9d, 0x96, 0xf0, 0x9d, 0x9e, 0x90, 0xe2, 0x8d, 0xb6, 0xe2, 0x8d, 0xba, 0xe2, 0xa9, 0x9c, 0xe1, 0x97, 0x85, 0xe1, 0x8e,
  0xaa, 0xa, 0x20, 0x2d, 0x20, 0x29, 0xcb, 0xba, 0xcb, 0xbc, 0xf0, 0x94, 0x97, 0x8f, 0xf0, 0x9d, 0x85, 0xb4, 0xf0, 0x9d, 0x85, 0xb6, 0xf0, 0x9d,
  0x85, 0xb8, 0xf0, 0x9d, 0x85, 0xba, 0xe2, 0x81, 0xbe, 0xe2, 0x82, 0x8e, 0xe2, 0x9d, 0xa9, 0xe2, 0x9d, 0xab, 0xe2, 0x9f, 0xaf, 0xef, 0xb4, 0xbf,
  0xef, 0xb8, 0xb6, 0xef, 0xb9, 0x9a, 0xef, 0xbc, 0x89, 0xef, 0xbd, 0xa0, 0xe2, 0x9d, 0xb3, 0xe2, 0x9d, 0xb5, 0xe2, 0x9f, 0xa7, 0xe2, 0x9f, 0xa9,
  0xe2, 0x9f, 0xab, 0xe2, 0x9f, 0xad, 0xe2, 0xa6, 0x88, 0xe2, 0xa6, 0x8a, 0xe2, 0xa6, 0x96, 0xe2, 0xb8, 0xa3, 0xe2, 0xb8, 0xa5, 0xef, 0xb8, 0x98,
  0xef, 0xb8, 0xb8, 0xef, 0xb8, 0xba, 0xef, 0xb8, 0xbc, 0xef, 0xb8, 0xbe, 0xef, 0xb9, 0x80, 0xef, 0xb9, 0x82, 0xef, 0xb9, 0x84, 0xef, 0xb9, 0x88,
  0xef, 0xb9, 0x9c, 0xef, 0xb9, 0x9e, 0xef, 0xbc, 0xbd, 0xef, 0xbd, 0x9d, 0xef, 0xbd, 0xa3, 0xc2, 0xbb, 0xe2, 0x80, 0x99, 0xe2, 0x80, 0x9d, 0xe2,
  0x80, 0xba, 0xe2, 0x9d, 0xaf, 0x28, 0xcb, 0xb9]

def sampleExample18 : List Nat := [
  0xcb, 0xbb, 0xf0, 0x94, 0x97, 0x8e, 0xf0, 0x9d, 0x85, 0xb3, 0xf0, 0x9d, 0x85, 0xb5, 0xf0, 0x9d, 0x85, 0xb7, 0xf0, 0x9d, 0x85, 0xb9, 0xe2, 0x81,
  0xbd, 0xe2, 0x82, 0x8d, 0xe2, 0x9d, 0xa8, 0xe2, 0x9d, 0xaa, 0xe2, 0x9f, 0xae, 0xef, 0xb4, 0xbe, 0xef, 0xb8, 0xb5, 0xef, 0xb9, 0x99, 0xef, 0xbc,
  0x88, 0xef, 0xbd, 0x9f, 0xe2, 0x9d, 0xb2, 0xe2, 0x9d, 0xb4, 0xe2, 0x9f, 0xa6, 0xe2, 0x9f, 0xa8, 0xe2, 0x9f, 0xaa, 0xe2, 0x9f, 0xac, 0xe2, 0xa6,
  0x87, 0xe2, 0xa6, 0x89, 0xe2, 0xa6, 0x95, 0xe2, 0xb8, 0xa2, 0xe2, 0xb8, 0xa4, 0xef, 0xb8, 0x97, 0xef, 0xb8, 0xb7, 0xef, 0xb8, 0xb9, 0xef, 0xb8,
  0xbb, 0xef, 0xb8, 0xbd, 0xef, 0xb8, 0xbf, 0xef, 0xb9, 0x81, 0xef, 0xb9, 0x83, 0xef, 0xb9, 0x87, 0xef, 0xb9, 0x9b, 0xef, 0xb9, 0x9d, 0xef, 0xbc,
  0xbb, 0xef, 0xbd, 0x9b, 0xef, 0xbd, 0xa2, 0xc2, 0xab, 0xe2, 0x80, 0x98, 0xe2, 0x80, 0x9c, 0xe2, 0x80, 0xb9, 0xe2, 0x9d, 0xae, 0xf0, 0x9d, 0xaa,
  0x8b, 0xf0, 0x9d, 0xaa, 0xa4, 0xf0, 0x9d, 0xaa, 0x8b, 0xc2, 0xbd, 0xe2, 0x81, 0x84, 0xe0, 0xad, 0xb3, 0xe0, 0xb5, 0xb4, 0xe2, 0xb3, 0xbd, 0xea,
  0xa0, 0xb1, 0xf0, 0x90, 0x85, 0x81, 0xf0, 0x90, 0x85, 0xb5, 0xf0, 0x90, 0x85, 0xb6, 0xf0, 0x90, 0xa6, 0xbd, 0xf0, 0x90, 0xb9, 0xbb, 0xef, 0xbc,
  0x82, 0xe2, 0x8c, 0xab, 0xe2, 0x8c, 0xa6, 0xe2]

def sampleExample19 : List Nat := [
  0x90, 0x88, 0xe2, 0x90, 0xa1, 0x20, 0xe1, 0xb7, 0xbb, 0xe2, 0x86, 0x90, 0xe2, 0x8c, 0xa7, 0xe2, 0x8d, 0x92, 0xe2, 0x8d, 0x94, 0xe2, 0x8d, 0xa2,
  0xe2, 0x8d, 0xab, 0xe2, 0x90, 0xa6, 0xe2, 0x90, 0x9a, 0x3f, 0xc2, 0xbf, 0xe1, 0xa5, 0x85, 0x3b, 0xd5, 0x9e, 0xd8, 0x9f, 0xe1, 0x8d, 0xa7, 0xe2,
  0x81, 0x87, 0xe2, 0x8d, 0xb0, 0xe2, 0x9d, 0x93, 0xe2, 0x9d, 0x94, 0xe2, 0xb3, 0xba, 0xe2, 0xb3, 0xbb, 0xe2, 0xb8, 0xae, 0xe3, 0x89, 0x84, 0xea,
  0x98, 0x8f, 0xea, 0x9b, 0xb7, 0xef, 0xb8, 0x96, 0xef, 0xb9, 0x96, 0xef, 0xbc, 0x9f, 0xf0, 0x91, 0x85, 0x83, 0xf0, 0x9e, 0xa5, 0x9f, 0xf0, 0x96,
  0xa1, 0x84, 0xe2, 0xaf, 0x91, 0xc2, 0xb6, 0xe2, 0x81, 0x8b, 0xdc, 0x80, 0xe1, 0x83, 0xbb, 0xe1, 0x8d, 0xa8, 0xe3, 0x80, 0xb7, 0xe2, 0x9d, 0xa1,
  0xe2, 0xb8, 0x8f, 0xe2, 0xb8, 0x90, 0xe2, 0xb8, 0x91, 0xe2, 0xb8, 0x8e, 0xe2, 0x98, 0x99, 0xe2, 0xb8, 0xbf, 0xe3, 0x80, 0x87, 0xe0, 0xb9, 0x9b,
  0xea, 0x99, 0xae, 0xcf, 0x93, 0xcf, 0x94, 0xe1, 0xba, 0x9b, 0xe2, 0x9d, 0x82, 0xa, 0x20, 0x2d, 0x20, 0x61, 0x6e, 0xe2, 0x85, 0xbe, 0xe2, 0x80,
  0x84, 0x6c, 0xd0, 0xbe, 0x74, 0xd1, 0x95, 0xe2, 0x80, 0x88, 0x6d, 0xd0, 0xbe, 0x72, 0xd0, 0xb5, 0xc7, 0x83, 0xa]

def sampleExample : List Nat := sampleExample0 ++ sampleExample1 ++ sampleExample2 ++ sampleExample3 ++ sampleExample4 ++ sampleExample5 ++ sampleExample6 ++ sampleExample7 ++ sampleExample8 ++ sampleExample9 ++ sampleExample10 ++ sampleExample11 ++ sampleExample12 ++ sampleExample13 ++ sampleExample14 ++ sampleExample15 ++ sampleExample16 ++ sampleExample17 ++ sampleExample18 ++ sampleExample19

def sampleInvalid0 : List (List Nat × List Nat) := [
  ([0xcc, 0x88, 0x20, 0x28, 0x42, 0x61, 0x73, 0x69, 0x63, 0x20, 0x54, 0x65, 0x78, 0x74, 0x20, 0x6d, 0x75, 0x73, 0x74, 0x20, 0x6e, 0x6f, 0x74, 0x20, 0x73, 0x74, 0x61, 0x72, 0x74, 0x20, 0x77, 0x69, 0x74, 0x68, 0x20, 0x61, 0x20, 0x6e, 0x6f, 0x6e, 0x2d, 0x73, 0x74, 0x61, 0x72, 0x74, 0x65, 0x72, 0xa], [0xcd, 0x8f, 0xcc, 0x88, 0x20, 0x28, 0x42, 0x61, 0x73, 0x69, 0x63, 0x20, 0x54, 0x65, 0x78, 0x74, 0x20, 0x6d, 0x75, 0x73, 0x74, 0x20, 0x6e, 0x6f, 0x74, 0x20, 0x73, 0x74, 0x61, 0x72, 0x74, 0x20, 0x77, 0x69, 0x74, 0x68, 0x20, 0x61, 0x20, 0x6e, 0x6f, 0x6e, 0x2d, 0x73, 0x74, 0x61, 0x72, 0x74, 0x65, 0x72, 0xa]),
  ([0xa], [0xa]),
  ([0x54, 0x68, 0x69, 0x73, 0x20, 0x66, 0x69, 0x6c, 0x65, 0x20, 0x63, 0x6f, 0x6e, 0x74, 0x61, 0x69, 0x6e, 0x73, 0x20, 0x69, 0x6e, 0x76, 0x61, 0x6c, 0x69, 0x64, 0x20, 0x42, 0x61, 0x73, 0x69, 0x63, 0x20, 0x54, 0x65, 0x78, 0x74, 0x2e, 0xa], [0x54, 0x68, 0x69, 0x73, 0x20, 0x66, 0x69, 0x6c, 0x65, 0x20, 0x63, 0x6f, 0x6e, 0x74, 0x61, 0x69, 0x6e, 0x73, 0x20, 0x69, 0x6e, 0x76, 0x61, 0x6c, 0x69, 0x64, 0x20, 0x42, 0x61, 0x73, 0x69, 0x63, 0x20, 0x54, 0x65, 0x78, 0x74, 0x2e, 0xa]),
  ([0xa], [0xa]),
  ([0x49, 0x6c, 0x6c, 0x2d, 0x66, 0x6f, 0x72, 0x6d, 0x65, 0x64, 0x20, 0x65, 0x6e, 0x63, 0x6f, 0x64, 0x69, 0x6e, 0x67, 0x73, 0x20, 0x61, 0x72, 0x65, 0x20, 0x72, 0x65, 0x70, 0x6c, 0x61, 0x63, 0x65, 0x64, 0x20, 0x62, 0x79, 0x20, 0x55, 0x2b, 0x46, 0x46, 0x46, 0x44, 0x2e, 0xa], [0x49, 0x6c, 0x6c, 0x2d, 0x66, 0x6f, 0x72, 0x6d, 0x65, 0x64, 0x20, 0x65, 0x6e, 0x63, 0x6f, 0x64, 0x69, 0x6e, 0x67, 0x73, 0x20, 0x61, 0x72, 0x65, 0x20, 0x72, 0x65, 0x70, 0x6c, 0x61, 0x63, 0x65, 0x64, 0x20, 0x62, 0x79, 0x20, 0x55, 0x2b, 0x46, 0x46, 0x46, 0x44, 0x2e, 0xa]),
  ([0x20, 0x2d, 0x20, 0xc0, 0xc1, 0xa], [0x20, 0x2d, 0x20, 0xef, 0xbf, 0xbd, 0xef, 0xbf, 0xbd, 0xa]),
  ([0x20, 0x2d, 0x20, 0xfc, 0x80, 0x80, 0x80, 0x80, 0x80, 0xa], [0x20, 0x2d, 0x20, 0xef, 0xbf, 0xbd, 0xef, 0xbf, 0xbd, 0xef, 0xbf, 0xbd, 0xef, 0xbf, 0xbd, 0xef, 0xbf, 0xbd, 0xef, 0xbf, 0xbd, 0xa]),
  ([0x20, 0x2d, 0x20, 0xfc, 0x80, 0x80, 0x80, 0x82, 0x80, 0xa], [0x20, 0x2d, 0x20, 0xef, 0xbf, 0xbd, 0xef, 0xbf, 0xbd, 0xef, 0xbf, 0xbd, 0xef, 0xbf, 0xbd, 0xef, 0xbf, 0xbd, 0xef, 0xbf, 0xbd, 0xa]),
  ([0x20, 0x2d, 0x20, 0x80, 0xa], [0x20, 0x2d, 0x20, 0xef, 0xbf, 0xbd, 0xa]),
  ([0x20, 0x2d, 0x20, 0x80, 0x80, 0x80, 0xa], [0x20, 0x2d, 0x20, 0xef, 0xbf, 0xbd, 0xef, 0xbf, 0xbd, 0xef, 0xbf, 0xbd, 0xa]),
  ([0x20, 0x2d, 0x20, 0xf0, 0x9f, 0x92, 0xa], [0x20, 0x2d, 0x20, 0xef, 0xbf, 0xbd, 0xa]),
  ([0x20, 0x2d, 0x20, 0xfe, 0xa], [0x20, 0x2d, 0x20, 0xef, 0xbf, 0xbd, 0xa]),
  ([0x20, 0x2d, 0x20, 0xfe, 0x80, 0xa], [0x20, 0x2d, 0x20, 0xef, 0xbf, 0xbd, 0xef, 0xbf, 0xbd, 0xa]),
  ([0x20, 0x2d, 0x20, 0xff, 0xa], [0x20, 0x2d, 0x20, 0xef, 0xbf, 0xbd, 0xa]),
  ([0x20, 0x2d, 0x20, 0xff, 0x80, 0xa], [0x20, 0x2d, 0x20, 0xef, 0xbf, 0xbd, 0xef, 0xbf, 0xbd, 0xa])]

def sampleInvalid1 : List (List Nat × List Nat) := [
  ([0xa], [0xa]),
  ([0x4d, 0x61, 0x6e, 0x79, 0x20, 0x73, 0x63, 0x61, 0x6c, 0x61, 0x72, 0x20, 0x76, 0x61, 0x6c, 0x75, 0x65, 0x73, 0x20, 0x61, 0x72, 0x65, 0x20, 0x73, 0x69, 0x6d, 0x70, 0x6c, 0x79, 0x20, 0x72, 0x65, 0x70, 0x6c, 0x61, 0x63, 0x65, 0x64, 0x20, 0x62, 0x79, 0x20, 0x55, 0x2b, 0x46, 0x46, 0x46, 0x44, 0x2c, 0x20, 0x73, 0x75, 0x63, 0x68, 0x20, 0x61, 0x73, 0x20, 0xe0, 0xa7, 0xa4, 0xe0, 0xa7, 0xa4, 0xe0, 0xa7, 0xa5, 0xe0, 0xa9, 0xa4, 0xe0, 0xa9, 0xa5, 0xe0, 0xab, 0xa4, 0xe0, 0xab, 0xa5, 0xe0, 0xad, 0xa4, 0xe0, 0xad, 0xa5, 0xe0, 0xaf, 0xa4, 0xe0, 0xaf, 0xa5, 0xe0, 0xb1, 0xa4, 0xe0, 0xb1, 0xa5, 0xe0, 0xb3, 0xa4, 0xe0, 0xb3, 0xa5, 0xe0, 0xb5, 0xa4, 0xe0, 0xb5, 0xa5, 0xe2, 0x81, 0xb2, 0xe2, 0x81, 0xb3, 0x2e, 0xa], [0x4d, 0x61, 0x6e, 0x79, 0x20, 0x73, 0x63, 0x61, 0x6c, 0x61, 0x72, 0x20, 0x76, 0x61, 0x6c, 0x75, 0x65, 0x73, 0x20, 0x61, 0x72, 0x65, 0x20, 0x73, 0x69, 0x6d, 0x70, 0x6c, 0x79, 0x20, 0x72, 0x65, 0x70, 0x6c, 0x61, 0x63, 0x65, 0x64, 0x20, 0x62, 0x79, 0x20, 0x55, 0x2b, 0x46, 0x46, 0x46, 0x44, 0x2c, 0x20, 0x73, 0x75, 0x63, 0x68, 0x20, 0x61, 0x73, 0x20, 0xef, 0xbf, 0xbd, 0xef, 0xbf, 0xbd, 0xef, 0xbf, 0xbd, 0xef, 0xbf, 0xbd, 0xef, 0xbf, 0xbd, 0xef, 0xbf, 0xbd, 0xef, 0xbf, 0xbd, 0xef, 0xbf, 0xbd, 0xef, 0xbf, 0xbd, 0xef, 0xbf, 0xbd, 0xef, 0xbf, 0xbd, 0xef, 0xbf, 0xbd, 0xef, 0xbf, 0xbd, 0xef, 0xbf, 0xbd, 0xef, 0xbf, 0xbd, 0xef, 0xbf, 0xbd, 0xef, 0xbf, 0xbd, 0xef, 0xbf, 0xbd, 0xef, 0xbf, 0xbd, 0x2e, 0xa]),
  ([0x41, 0x6e, 0x64, 0x20, 0xe2, 0x8c, 0xa9, 0xe2, 0x8c, 0xaa, 0xf0, 0x9d, 0x91, 0x95, 0xf0, 0x9d, 0x92, 0x9d, 0xf0, 0x9d, 0x92, 0xa0, 0xf0, 0x9d, 0x92, 0xa1, 0xf0, 0x9d, 0x92, 0xa3, 0xf0, 0x9d, 0x92, 0xa4, 0xf0, 0x9d, 0x92, 0xa7, 0xf0, 0x9d, 0x92, 0xa8, 0xf0, 0x9d, 0x92, 0xad, 0xf0, 0x9d, 0x92, 0xba, 0xf0, 0x9d, 0x92, 0xbc, 0xf0, 0x9d, 0x93, 0x84, 0xf0, 0x9d, 0x94, 0x86, 0xf0, 0x9d, 0x94, 0x8b, 0xf0, 0x9d, 0x94, 0x8c, 0xf0, 0x9d, 0x94, 0x95, 0xf0, 0x9d, 0x94, 0x9d, 0xf0, 0x9d, 0x94, 0xba, 0xf0, 0x9d, 0x94, 0xbf, 0xf0, 0x9d, 0x95, 0x85, 0xf0, 0x9d, 0x95, 0x87, 0xf0, 0x9d, 0x95, 0x88, 0xf0, 0x9d, 0x95, 0x89, 0xf0, 0x9d, 0x95, 0x91, 0x2e, 0xa], [0x41, 0x6e, 0x64, 0x20, 0xef, 0xbf, 0xbd, 0xef, 0xbf, 0xbd, 0xef, 0xbf, 0xbd, 0xef, 0xbf, 0xbd, 0xef, 0xbf, 0xbd, 0xef, 0xbf, 0xbd, 0xef, 0xbf, 0xbd, 0xef, 0xbf, 0xbd, 0xef, 0xbf, 0xbd, 0xef, 0xbf, 0xbd, 0xef, 0xbf, 0xbd, 0xef, 0xbf, 0xbd, 0xef, 0xbf, 0xbd, 0xef, 0xbf, 0xbd, 0xef, 0xbf, 0xbd, 0xef, 0xbf, 0xbd, 0xef, 0xbf, 0xbd, 0xef, 0xbf, 0xbd, 0xef, 0xbf, 0xbd, 0xef, 0xbf, 0xbd, 0xef, 0xbf, 0xbd, 0xef, 0xbf, 0xbd, 0xef, 0xbf, 0xbd, 0xef, 0xbf, 0xbd, 0xef, 0xbf, 0xbd, 0xef, 0xbf, 0xbd, 0x2e, 0xa]),
  ([0xa], [0xa]),
  ([0x53, 0x6f, 0x6d, 0x65, 0x20, 0x63, 0x68, 0x61, 0x72, 0x61, 0x63, 0x74, 0x65, 0x72, 0x73, 0x20, 0x68, 0x61, 0x76, 0x65, 0x20, 0x73, 0x70, 0x65, 0x63, 0x69, 0x66, 0x69, 0x63, 0x20, 0x72, 0x65, 0x70, 0x6c, 0x61, 0x63, 0x65, 0x6d, 0x65, 0x6e, 0x74, 0x73, 0x20, 0x73, 0x75, 0x63, 0x68, 0x20, 0x61, 0x73, 0x20, 0xe2, 0x84, 0xa6, 0x2c, 0x20, 0xe2, 0x84, 0xaa, 0x2c, 0x20, 0xe2, 0x84, 0xab, 0x2c, 0x20, 0xef, 0xac, 0x80, 0x2c, 0x20, 0xef, 0xac, 0x81, 0x2c, 0x20, 0xef, 0xac, 0x82, 0x2c, 0x20, 0xef, 0xac, 0x83, 0x2c, 0x20, 0xef, 0xac, 0x84, 0x2c, 0x20, 0xef, 0xac, 0x85, 0x2c, 0x20, 0x61, 0x6e, 0x64, 0x20, 0xef, 0xac, 0x86, 0x2e, 0xa], [0x53, 0x6f, 0x6d, 0x65, 0x20, 0x63, 0x68, 0x61, 0x72, 0x61, 0x63, 0x74, 0x65, 0x72, 0x73, 0x20, 0x68, 0x61, 0x76, 0x65, 0x20, 0x73, 0x70, 0x65, 0x63, 0x69, 0x66, 0x69, 0x63, 0x20, 0x72, 0x65, 0x70, 0x6c, 0x61, 0x63, 0x65, 0x6d, 0x65, 0x6e, 0x74, 0x73, 0x20, 0x73, 0x75, 0x63, 0x68, 0x20, 0x61, 0x73, 0x20, 0xce, 0xa9, 0x2c, 0x20, 0x4b, 0x2c, 0x20, 0xc3, 0x85, 0x2c, 0x20, 0x66, 0x66, 0x2c, 0x20, 0x66, 0x69, 0x2c, 0x20, 0x66, 0x6c, 0x2c, 0x20, 0x66, 0x66, 0x69, 0x2c, 0x20, 0x66, 0x66, 0x6c, 0x2c, 0x20, 0xc5, 0xbf, 0x74, 0x2c, 0x20, 0x61, 0x6e, 0x64, 0x20, 0x73, 0x74, 0x2e, 0xa]),
  ([0xa], [0xa]),
  ([0x43, 0x4a, 0x4b, 0x20, 0x43, 0x6f, 0x6d, 0x70, 0x61, 0x74, 0x69, 0x62, 0x69, 0x6c, 0x69, 0x74, 0x79, 0x20, 0x49, 0x64, 0x65, 0x6f, 0x67, 0x72, 0x61, 0x70, 0x68, 0x73, 0x20, 0x61, 0x72, 0x65, 0x20, 0x63, 0x61, 0x6e, 0x6f, 0x6e, 0x69, 0x63, 0x61, 0x6c, 0x69, 0x7a, 0x65, 0x64, 0x20, 0x75, 0x73, 0x69, 0x6e, 0x67, 0x20, 0x56, 0x61, 0x72, 0x69, 0x61, 0x74, 0x69, 0x6f, 0x6e, 0x20, 0x53, 0x65, 0x71, 0x75, 0x65, 0x6e, 0x63, 0x65, 0x73, 0x3a, 0xa], [0x43, 0x4a, 0x4b, 0x20, 0x43, 0x6f, 0x6d, 0x70, 0x61, 0x74, 0x69, 0x62, 0x69, 0x6c, 0x69, 0x74, 0x79, 0x20, 0x49, 0x64, 0x65, 0x6f, 0x67, 0x72, 0x61, 0x70, 0x68, 0x73, 0x20, 0x61, 0x72, 0x65, 0x20, 0x63, 0x61, 0x6e, 0x6f, 0x6e, 0x69, 0x63, 0x61, 0x6c, 0x69, 0x7a, 0x65, 0x64, 0x20, 0x75, 0x73, 0x69, 0x6e, 0x67, 0x20, 0x56, 0x61, 0x72, 0x69, 0x61, 0x74, 0x69, 0x6f, 0x6e, 0x20, 0x53, 0x65, 0x71, 0x75, 0x65, 0x6e, 0x63, 0x65, 0x73, 0x3a, 0xa]),
  ([0xa], [0xa]),
  ([0xf0, 0xaf, 0xa1, 0xa9, 0xef, 0xaa, 0x81, 0xf0, 0xaf, 0xa1, 0xaa, 0xf0, 0xaf, 0xa1, 0xab, 0xef, 0xa8, 0x84, 0xf0, 0xaf, 0xa1, 0xad, 0xf0, 0xaf, 0xa1, 0xae, 0xef, 0xa5, 0x9f, 0xef, 0xa6, 0xaa, 0xf0, 0xaf, 0xa1, 0xaf, 0xef, 0xa6, 0xbc, 0xf0, 0xaf, 0xa1, 0xb0, 0xf0, 0xaf, 0xa1, 0xb2, 0xf0, 0xaf, 0xa1, 0xb3, 0xf0, 0xaf, 0xa1, 0xb5, 0xef, 0xa6, 0xbd, 0xf0, 0xaf, 0xa1, 0xb7, 0xef, 0xa5, 0x8b, 0xef, 0xa8, 0xbb, 0xef, 0xa7, 0x9f, 0xef, 0xa8, 0xbc, 0xf0, 0xaf, 0xa1, 0xb8, 0xf0, 0xaf, 0xa1, 0xba, 0xf0, 0xaf, 0xa1, 0xb9, 0xef, 0xa7, 0x95, 0xf0, 0xaf, 0xa1, 0xbc, 0xef, 0xa4, 0xa1, 0xf0, 0xaf, 0xa1, 0xbf, 0xf0, 0xaf, 0xa1, 0xbe, 0xf0, 0xaf, 0xa2, 0x80, 0xf0, 0xaf, 0xa7, 0xb4, 0xef, 0xa6, 0xab, 0xf0, 0xaf, 0xa2, 0x81, 0xf0, 0xaf, 0xa2, 0x82, 0xf0, 0xaf, 0xa2, 0x84, 0xf0, 0xaf, 0xa2, 0x85, 0xf0, 0xaf, 0xa2, 0x86, 0xf0, 0xaf, 0xa2, 0x87, 0xef, 0xa6, 0x8e, 0xef, 0xa8, 0x81, 0xa], [0xe5, 0xac, 0x88, 0xef, 0xb8, 0x80, 0xe5, 0xac, 0xa8, 0xef, 0xb8, 0x80, 0xe5, 0xac, 0xbe, 0xef, 0xb8, 0x80, 0xe5, 0xac, 0xbe, 0xef, 0xb8, 0x81, 0xe5, 0xae, 0x85, 0xef, 0xb8, 0x80, 0xe5, 0xaf, 0x83, 0xef, 0xb8, 0x80, 0xe5, 0xaf, 0x98, 0xef, 0xb8, 0x80, 0xe5, 0xaf, 0xa7, 0xef, 0xb8, 0x80, 0xe5, 0xaf, 0xa7, 0xef, 0xb8, 0x81, 0xe5, 0xaf, 0xa7, 0xef, 0xb8, 0x82, 0xe5, 0xaf, 0xae, 0xef, 0xb8, 0x80, 0xe5, 0xaf, 0xb3, 0xef, 0xb8, 0x80, 0xe5, 0xaf, 0xbf, 0xef, 0xb8, 0x80, 0xe5, 0xb0, 0x86, 0xef, 0xb8, 0x80, 0xe5, 0xb0, 0xa2, 0xef, 0xb8, 0x80, 0xe5, 0xb0, 0xbf, 0xef, 0xb8, 0x80, 0xe5, 0xb1, 0xa0, 0xef, 0xb8, 0x80, 0xe5, 0xb1, 0xa2, 0xef, 0xb8, 0x80, 0xe5, 0xb1, 0xa4, 0xef, 0xb8, 0x80, 0xe5, 0xb1, 0xa5, 0xef, 0xb8, 0x80, 0xe5, 0xb1, 0xae, 0xef, 0xb8, 0x80, 0xe5, 0xb1, 0xae, 0xef, 0xb8, 0x81, 0xe5, 0xb2, 0x8d, 0xef, 0xb8, 0x80, 0xe5, 0xb3, 0x80, 0xef, 0xb8, 0x80, 0xe5, 0xb4, 0x99, 0xef, 0xb8, 0x80, 0xe5, 0xb5, 0x83, 0xef, 0xb8, 0x80, 0xe5, 0xb5, 0x90, 0xef, 0xb8, 0x80, 0xe5, 0xb5, 0xab, 0xef, 0xb8, 0x80, 0xe5, 0xb5, 0xae, 0xef, 0xb8, 0x80, 0xe5, 0xb5, 0xbc, 0xef, 0xb8, 0x80, 0xe5, 0xb6, 0xb2, 0xef, 0xb8, 0x80, 0xe5, 0xb6, 0xba, 0xef, 0xb8, 0x80, 0xe5, 0xb7, 0xa1, 0xef, 0xb8, 0x80, 0xe5, 0xb7, 0xa2, 0xef, 0xb8, 0x80, 0xe5, 0xb7, 0xbd, 0xef, 0xb8, 0x80, 0xe5, 0xb8, 0xa8, 0xef, 0xb8, 0x80, 0xe5, 0xb8, 0xbd, 0xef, 0xb8, 0x80, 0xe5, 0xb9, 0xa9, 0xef, 0xb8, 0x80, 0xe5, 0xb9, 0xb4, 0xef, 0xb8, 0x80, 0xe5, 0xba, 0xa6, 0xef, 0xb8, 0x80, 0xa]),
  ([0xf0, 0xaf, 0xa2, 0x8b, 0xf0, 0xaf, 0xa2, 0x8c, 0xf0, 0xaf, 0xa2, 0x8d, 0xef, 0xa6, 0xa2, 0xef, 0xa4, 0xa8, 0xf0, 0xaf, 0xa2, 0x8e, 0xef, 0xaa, 0x82, 0xef, 0xa8, 0x8b, 0xef, 0xaa, 0x83, 0xef, 0xa6, 0x82, 0xf0, 0xaf, 0xa2, 0x90, 0xef, 0xa5, 0x83, 0xf0, 0xaf, 0xa2, 0x94, 0xf0, 0xaf, 0xa2, 0x95, 0xf0, 0xaf, 0xa1, 0xb4, 0xf0, 0xaf, 0xa2, 0x99, 0xef, 0xaa, 0x84, 0xf0, 0xaf, 0xa2, 0x9a, 0xef, 0xa7, 0x98, 0xf0, 0xaf, 0xa2, 0x9c, 0xef, 0xa5, 0xa6, 0xef, 0xaa, 0x85, 0xf0, 0xaf, 0xa2, 0x9d, 0xf0, 0xaf, 0xa2, 0x9e, 0xef, 0xa6, 0xa3, 0xf0, 0xaf, 0xa2, 0x9f, 0xef, 0xa5, 0xa0, 0xef, 0xa6, 0xac, 0xef, 0xa9, 0xab, 0xf0, 0xaf, 0xa2, 0xa0, 0xef, 0xa8, 0xbd, 0xf0, 0xaf, 0xa2, 0xa3, 0xf0, 0xaf, 0xa2, 0xa5, 0xef, 0xaa, 0x86, 0xef, 0xa6, 0xb9, 0xef, 0xaa, 0x88, 0xef, 0xa7, 0x99, 0xf0, 0xaf, 0xa2, 0xa6, 0xf0, 0xaf, 0xa2, 0xa7, 0xf0, 0xaf, 0xa2, 0xa9, 0xa], [0xe5, 0xba, 0xb0, 0xef, 0xb8, 0x80, 0xe5, 0xba, 0xb3, 0xef, 0xb8, 0x80, 0xe5, 0xba, 0xb6, 0xef, 0xb8, 0x80, 0xe5, 0xbb, 0x89, 0xef, 0xb8, 0x80, 0xe5, 0xbb, 0x8a, 0xef, 0xb8, 0x80, 0xe5, 0xbb, 0x8a, 0xef, 0xb8, 0x81, 0xe5, 0xbb, 0x92, 0xef, 0xb8, 0x80, 0xe5, 0xbb, 0x93, 0xef, 0xb8, 0x80, 0xe5, 0xbb, 0x99, 0xef, 0xb8, 0x80, 0xe5, 0xbb, 0xac, 0xef, 0xb8, 0x80, 0xe5, 0xbb, 0xbe, 0xef, 0xb8, 0x80, 0xe5, 0xbc, 0x84, 0xef, 0xb8, 0x80, 0xe5, 0xbc, 0xa2, 0xef, 0xb8, 0x80, 0xe5, 0xbc, 0xa2, 0xef, 0xb8, 0x81, 0xe5, 0xbd, 0x93, 0xef, 0xb8, 0x80, 0xe5, 0xbd, 0xa2, 0xef, 0xb8, 0x80, 0xe5, 0xbd, 0xa9, 0xef, 0xb8, 0x80, 0xe5, 0xbd, 0xab, 0xef, 0xb8, 0x80, 0xe5, 0xbe, 0x8b, 0xef, 0xb8, 0x80, 0xe5, 0xbe, 0x9a, 0xef, 0xb8, 0x80, 0xe5, 0xbe, 0xa9, 0xef, 0xb8, 0x80, 0xe5, 0xbe, 0xad, 0xef, 0xb8, 0x80, 0xe5, 0xbf, 0x8d, 0xef, 0xb8, 0x80, 0xe5, 0xbf, 0x97, 0xef, 0xb8, 0x80, 0xe5, 0xbf, 0xb5, 0xef, 0xb8, 0x80, 0xe5, 0xbf, 0xb9, 0xef, 0xb8, 0x80, 0xe6, 0x80, 0x92, 0xef, 0xb8, 0x80, 0xe6, 0x80, 0x9c, 0xef, 0xb8, 0x80, 0xe6, 0x81, 0xb5, 0xef, 0xb8, 0x80, 0xe6, 0x82, 0x81, 0xef, 0xb8, 0x80, 0xe6, 0x82, 0x94, 0xef, 0xb8, 0x80, 0xe6, 0x82, 0x94, 0xef, 0xb8, 0x81, 0xe6, 0x83, 0x87, 0xef, 0xb8, 0x80, 0xe6, 0x83, 0x98, 0xef, 0xb8, 0x80, 0xe6, 0x83, 0xa1, 0xef, 0xb8, 0x80, 0xe6, 0x84, 0x88, 0xef, 0xb8, 0x80, 0xe6, 0x85, 0x84, 0xef, 0xb8, 0x80, 0xe6, 0x85, 0x88, 0xef, 0xb8, 0x80, 0xe6, 0x85, 0x8c, 0xef, 0xb8, 0x80, 0xe6, 0x85, 0x8c, 0xef, 0xb8, 0x81, 0xa]),
  ([0xef, 0xaa, 0x87, 0xf0, 0xaf, 0xa2, 0xa8, 0xef, 0xaa, 0x8a, 0xef, 0xa8, 0xbe, 0xf0, 0xaf, 0xa2, 0xaa, 0xef, 0xa8, 0xbf, 0xef, 0xaa, 0x89, 0xf0, 0xaf, 0xa2, 0xab, 0xef, 0xa6, 0x8f, 0xf0, 0xaf, 0xa2, 0xad, 0xf0, 0xaf, 0xa2, 0xae, 0xf0, 0xaf, 0xa2, 0xac, 0xf0, 0xaf, 0xa2, 0xaf, 0xef, 0xa9, 0x80, 0xef, 0xaa, 0x8b, 0xf0, 0xaf, 0xa2, 0xb0, 0xef, 0xa4, 0x8d, 0xf0, 0xaf, 0xa2, 0xb1, 0xef, 0xa6, 0x90, 0xf0, 0xaf, 0xa2, 0xb2, 0xf0, 0xaf, 0xa2, 0xb3, 0xef, 0xa7, 0x92, 0xef, 0xaa, 0x8c, 0xf0, 0xaf, 0xa2, 0xb4, 0xf0, 0xaf, 0xa2, 0xb5, 0xef, 0xa4, 0xa5, 0xef, 0xa5, 0x9b, 0xef, 0xa8, 0x82, 0xf0, 0xaf, 0xa2, 0xb6, 0xf0, 0xaf, 0xa2, 0xba, 0xef, 0xa5, 0xb3, 0xf0, 0xaf, 0xa2, 0xb9, 0xf0, 0xaf, 0xa2, 0xb7, 0xf0, 0xaf, 0xa2, 0xbb, 0xef, 0xa6, 0xa4, 0xf0, 0xaf, 0xa2, 0xbc, 0xef, 0xa5, 0xb5, 0xf0, 0xaf, 0xa3, 0x81, 0xef, 0xaa, 0x8d, 0xf0, 0xaf, 0xa3, 0x80, 0xa], [0xe6, 0x85, 0x8e, 0xef, 0xb8, 0x80, 0xe6, 0x85, 0x8e, 0xef, 0xb8, 0x81, 0xe6, 0x85, 0xa0, 0xef, 0xb8, 0x80, 0xe6, 0x85, 0xa8, 0xef, 0xb8, 0x80, 0xe6, 0x85, 0xba, 0xef, 0xb8, 0x80, 0xe6, 0x86, 0x8e, 0xef, 0xb8, 0x80, 0xe6, 0x86, 0x8e, 0xef, 0xb8, 0x81, 0xe6, 0x86, 0x8e, 0xef, 0xb8, 0x82, 0xe6, 0x86, 0x90, 0xef, 0xb8, 0x80, 0xe6, 0x86, 0xa4, 0xef, 0xb8, 0x80, 0xe6, 0x86, 0xaf, 0xef, 0xb8, 0x80, 0xe6, 0x86, 0xb2, 0xef, 0xb8, 0x80, 0xe6, 0x87, 0x9e, 0xef, 0xb8, 0x80, 0xe6, 0x87, 0xb2, 0xef, 0xb8, 0x80, 0xe6, 0x87, 0xb2, 0xef, 0xb8, 0x81, 0xe6, 0x87, 0xb2, 0xef, 0xb8, 0x82, 0xe6, 0x87, 0xb6, 0xef, 0xb8, 0x80, 0xe6, 0x87, 0xb6, 0xef, 0xb8, 0x81, 0xe6, 0x88, 0x80, 0xef, 0xb8, 0x80, 0xe6, 0x88, 0x90, 0xef, 0xb8, 0x80, 0xe6, 0x88, 0x9b, 0xef, 0xb8, 0x80, 0xe6, 0x88, 0xae, 0xef, 0xb8, 0x80, 0xe6, 0x88, 0xb4, 0xef, 0xb8, 0x80, 0xe6, 0x89, 0x9d, 0xef, 0xb8, 0x80, 0xe6, 0x8a, 0xb1, 0xef, 0xb8, 0x80, 0xe6, 0x8b, 0x89, 0xef, 0xb8, 0x80, 0xe6, 0x8b, 0x8f, 0xef, 0xb8, 0x80, 0xe6, 0x8b, 0x93, 0xef, 0xb8, 0x80, 0xe6, 0x8b, 0x94, 0xef, 0xb8, 0x80, 0xe6, 0x8b, 0xbc, 0xef, 0xb8, 0x80, 0xe6, 0x8b, 0xbe, 0xef, 0xb8, 0x80, 0xe6, 0x8c, 0xbd, 0xef, 0xb8, 0x80, 0xe6, 0x8d, 0x90, 0xef, 0xb8, 0x80, 0xe6, 0x8d, 0xa8, 0xef, 0xb8, 0x80, 0xe6, 0x8d, 0xbb, 0xef, 0xb8, 0x80, 0xe6, 0x8e, 0x83, 0xef, 0xb8, 0x80, 0xe6, 0x8e, 0xa0, 0xef, 0xb8, 0x80, 0xe6, 0x8e, 0xa9, 0xef, 0xb8, 0x80, 0xe6, 0x8f, 0x84, 0xef, 0xb8, 0x80, 0xe6, 0x8f, 0x85, 0xef, 0xb8, 0x80, 0xa]),
  ([0xf0, 0xaf, 0xa2, 0xbd, 0xef, 0xaa, 0x8e, 0xf0, 0xaf, 0xa2, 0xbf, 0xef, 0xaa, 0x8f, 0xf0, 0xaf, 0xa3, 0x83, 0xf0, 0xaf, 0xa3, 0x86, 0xf0, 0xaf, 0xa3, 0x84, 0xef, 0xa6, 0x91, 0xf0, 0xaf, 0xa3, 0x85, 0xef, 0xa4, 0xb0, 0xef, 0xa9, 0x81, 0xf0, 0xaf, 0xa3, 0x88, 0xef, 0xaa, 0x90, 0xf0, 0xaf, 0xa3, 0x89, 0xef, 0xa5, 0xa9, 0xef, 0xa6, 0xbe, 0xef, 0xa6, 0x83, 0xef, 0xa9, 0x82, 0xf0, 0xaf, 0xa3, 0x8b, 0xef, 0xa7, 0xa0, 0xf0, 0xaf, 0xa3, 0x8d, 0xef, 0xa8, 0x92, 0xef, 0xaa, 0x91, 0xef, 0xa7, 0x85, 0xef, 0xa9, 0x83, 0xf0, 0xaf, 0xa3, 0x8f, 0xf0, 0xaf, 0xa3, 0x95, 0xef, 0xa8, 0x86, 0xef, 0xa6, 0x8b, 0xef, 0xa4, 0x81, 0xf0, 0xaf, 0xa3, 0x8c, 0xf0, 0xaf, 0xa3, 0x94, 0xef, 0xa4, 0xa9, 0xef, 0xaa, 0x92, 0xf0, 0xaf, 0xa3, 0x98, 0xef, 0xaa, 0x93, 0xf0, 0xaf, 0xa3, 0x99, 0xf0, 0xaf, 0xa3, 0x9a, 0xef, 0xa7, 0xa1, 0xf0, 0xaf, 0xa3, 0x9c, 0xa], [0xe6, 0x8f, 0xa4, 0xef, 0xb8, 0x80, 0xe6, 0x90, 0x9c, 0xef, 0xb8, 0x80, 0xe6, 0x90, 0xa2, 0xef, 0xb8, 0x80, 0xe6, 0x91, 0x92, 0xef, 0xb8, 0x80, 0xe6, 0x91, 0xa9, 0xef, 0xb8, 0x80, 0xe6, 0x91, 0xb7, 0xef, 0xb8, 0x80, 0xe6, 0x91, 0xbe, 0xef, 0xb8, 0x80, 0xe6, 0x92, 0x9a, 0xef, 0xb8, 0x80, 0xe6, 0x92, 0x9d, 0xef, 0xb8, 0x80, 0xe6, 0x93, 0x84, 0xef, 0xb8, 0x80, 0xe6, 0x95, 0x8f, 0xef, 0xb8, 0x80, 0xe6, 0x95, 0x8f, 0xef, 0xb8, 0x81, 0xe6, 0x95, 0x96, 0xef, 0xb8, 0x80, 0xe6, 0x95, 0xac, 0xef, 0xb8, 0x80, 0xe6, 0x95, 0xb8, 0xef, 0xb8, 0x80, 0xe6, 0x96, 0x99, 0xef, 0xb8, 0x80, 0xe6, 0x97, 0x85, 0xef, 0xb8, 0x80, 0xe6, 0x97, 0xa2, 0xef, 0xb8, 0x80, 0xe6, 0x97, 0xa3, 0xef, 0xb8, 0x80, 0xe6, 0x98, 0x93, 0xef, 0xb8, 0x80, 0xe6, 0x99, 0x89, 0xef, 0xb8, 0x80, 0xe6, 0x99, 0xb4, 0xef, 0xb8, 0x80, 0xe6, 0x99, 0xb4, 0xef, 0xb8, 0x81, 0xe6, 0x9a, 0x88, 0xef, 0xb8, 0x80, 0xe6, 0x9a, 0x91, 0xef, 0xb8, 0x80, 0xe6, 0x9a, 0x91, 0xef, 0xb8, 0x81, 0xe6, 0x9a, 0x9c, 0xef, 0xb8, 0x80, 0xe6, 0x9a, 0xb4, 0xef, 0xb8, 0x80, 0xe6, 0x9b, 0x86, 0xef, 0xb8, 0x80, 0xe6, 0x9b, 0xb4, 0xef, 0xb8, 0x80, 0xe6, 0x9b, 0xb8, 0xef, 0xb8, 0x80, 0xe6, 0x9c, 0x80, 0xef, 0xb8, 0x80, 0xe6, 0x9c, 0x97, 0xef, 0xb8, 0x80, 0xe6, 0x9c, 0x97, 0xef, 0xb8, 0x81, 0xe6, 0x9c, 0x97, 0xef, 0xb8, 0x82, 0xe6, 0x9c, 0x9b, 0xef, 0xb8, 0x80, 0xe6, 0x9c, 0x9b, 0xef, 0xb8, 0x81, 0xe6, 0x9c, 0xa1, 0xef, 0xb8, 0x80, 0xe6, 0x9d, 0x8e, 0xef, 0xb8, 0x80, 0xe6, 0x9d, 0x93, 0xef, 0xb8, 0x80, 0xa]),
  ([0xef, 0xaa, 0x94, 0xf0, 0xaf, 0xa3, 0x9b, 0xef, 0xa7, 0x88, 0xf0, 0xaf, 0xa3, 0xa0, 0xef, 0xa7, 0xb4, 0xef, 0xa7, 0x89, 0xf0, 0xaf, 0xa3, 0x9f, 0xef, 0xa7, 0x9a, 0xf0, 0xaf, 0xa3, 0xa5, 0xf0, 0xaf, 0xa3, 0xa1, 0xef, 0xa5, 0xba, 0xef, 0xa9, 0x84, 0xf0, 0xaf, 0xa3, 0xa2, 0xf0, 0xaf, 0xa3, 0xa4, 0xef, 0xa7, 0xa2, 0xf0, 0xaf, 0xa3, 0xa6, 0xf0, 0xaf, 0xa3, 0xa8, 0xf0, 0xaf, 0xa3, 0xa9, 0xf0, 0xaf, 0xa3, 0xaa, 0xef, 0xa4, 0x94, 0xef, 0xa5, 0x9c, 0xef, 0xa6, 0xbf, 0xef, 0xa5, 0x8c, 0xf0, 0xaf, 0xa3, 0xab, 0xef, 0xa4, 0xb1, 0xf0, 0xaf, 0xa3, 0xad, 0xef, 0xa4, 0x9d, 0xf0, 0xaf, 0xa3, 0xaf, 0xf0, 0xaf, 0xa3, 0xb1, 0xf0, 0xaf, 0xa3, 0xb3, 0xef, 0xa6, 0x8c, 0xef, 0xaa, 0x95, 0xf0, 0xaf, 0xa3, 0xb4, 0xef, 0xa6, 0xa5, 0xef, 0xa5, 0xb0, 0xef, 0xaa, 0x96, 0xf0, 0xaf, 0xa3, 0xb5, 0xf0, 0xaf, 0xa3, 0xb6, 0xf0, 0xaf, 0xa3, 0xba, 0xf0, 0xaf, 0xa3, 0xbe, 0xa], [0xe6, 0x9d, 0x96, 0xef, 0xb8, 0x80, 0xe6, 0x9d, 0x9e, 0xef, 0xb8, 0x80, 0xe6, 0x9d, 0xbb, 0xef, 0xb8, 0x80, 0xe6, 0x9e, 0x85, 0xef, 0xb8, 0x80, 0xe6, 0x9e, 0x97, 0xef, 0xb8, 0x80, 0xe6, 0x9f, 0xb3, 0xef, 0xb8, 0x80, 0xe6, 0x9f, 0xba, 0xef, 0xb8, 0x80, 0xe6, 0xa0, 0x97, 0xef, 0xb8, 0x80, 0xe6, 0xa0, 0x9f, 0xef, 0xb8, 0x80, 0xe6, 0xa1, 0x92, 0xef, 0xb8, 0x80, 0xe6, 0xa2, 0x81, 0xef, 0xb8, 0x80, 0xe6, 0xa2, 0x85, 0xef, 0xb8, 0x80, 0xe6, 0xa2, 0x85, 0xef, 0xb8, 0x81, 0xe6, 0xa2, 0x8e, 0xef, 0xb8, 0x80, 0xe6, 0xa2, 0xa8, 0xef, 0xb8, 0x80, 0xe6, 0xa4, 0x94, 0xef, 0xb8, 0x80, 0xe6, 0xa5, 0x82, 0xef, 0xb8, 0x80, 0xe6, 0xa6, 0xa3, 0xef, 0xb8, 0x80, 0xe6, 0xa7, 0xaa, 0xef, 0xb8, 0x80, 0xe6, 0xa8, 0x82, 0xef, 0xb8, 0x80, 0xe6, 0xa8, 0x82, 0xef, 0xb8, 0x81, 0xe6, 0xa8, 0x82, 0xef, 0xb8, 0x82, 0xe6, 0xa8, 0x93, 0xef, 0xb8, 0x80, 0xe6, 0xaa, 0xa8, 0xef, 0xb8, 0x80, 0xe6, 0xab, 0x93, 0xef, 0xb8, 0x80, 0xe6, 0xab, 0x9b, 0xef, 0xb8, 0x80, 0xe6, 0xac, 0x84, 0xef, 0xb8, 0x80, 0xe6, 0xac, 0xa1, 0xef, 0xb8, 0x80, 0xe6, 0xad, 0x94, 0xef, 0xb8, 0x80, 0xe6, 0xad, 0xb2, 0xef, 0xb8, 0x80, 0xe6, 0xad, 0xb7, 0xef, 0xb8, 0x80, 0xe6, 0xad, 0xb9, 0xef, 0xb8, 0x80, 0xe6, 0xae, 0x9f, 0xef, 0xb8, 0x80, 0xe6, 0xae, 0xae, 0xef, 0xb8, 0x80, 0xe6, 0xae, 0xba, 0xef, 0xb8, 0x80, 0xe6, 0xae, 0xba, 0xef, 0xb8, 0x81, 0xe6, 0xae, 0xba, 0xef, 0xb8, 0x82, 0xe6, 0xae, 0xbb, 0xef, 0xb8, 0x80, 0xe6, 0xb1, 0x8e, 0xef, 0xb8, 0x80, 0xe6, 0xb1, 0xa7, 0xef, 0xb8, 0x80, 0xa]),
  ([0xef, 0xa5, 0xb2, 0xf0, 0xaf, 0xa3, 0xbc, 0xef, 0xa5, 0xa8, 0xf0, 0xaf, 0xa3, 0xbd, 0xef, 0xa7, 0xa3, 0xf0, 0xaf, 0xa3, 0xbf, 0xef, 0xa4, 0x95, 0xef, 0xa8, 0x85, 0xf0, 0xaf, 0xa4, 0x87, 0xf0, 0xaf, 0xa4, 0x80, 0xef, 0xa7, 0x8a, 0xef, 0xaa, 0x97, 0xf0, 0xaf, 0xa4, 0x82, 0xf0, 0xaf, 0xa4, 0x83, 0xef, 0xa4, 0xaa, 0xef, 0xa9, 0x85, 0xf0, 0xaf, 0xa4, 0x81, 0xf0, 0xaf, 0xa4, 0x84, 0xf0, 0xaf, 0xa4, 0x85, 0xef, 0xa7, 0xb5, 0xef, 0xa5, 0x8d, 0xef, 0xa7, 0x96, 0xf0, 0xaf, 0xa4, 0x8e, 0xef, 0xa9, 0x86, 0xf0, 0xaf, 0xa4, 0x88, 0xf0, 0xaf, 0xa4, 0x89, 0xef, 0xa7, 0x8b, 0xef, 0xa7, 0xac, 0xf0, 0xaf, 0xa4, 0x8c, 0xef, 0xaa, 0x99, 0xf0, 0xaf, 0xa4, 0x8b, 0xef, 0xa4, 0x84, 0xef, 0xaa, 0x98, 0xef, 0xa5, 0x8e, 0xef, 0xa9, 0x87, 0xef, 0xaa, 0x9a, 0xef, 0xa6, 0x92, 0xf0, 0xaf, 0xa4, 0x8f, 0xf0, 0xaf, 0xa4, 0x92, 0xef, 0xa4, 0xa2, 0xa], [0xe6, 0xb2, 0x88, 0xef, 0xb8, 0x80, 0xe6, 0xb2, 0xbf, 0xef, 0xb8, 0x80, 0xe6, 0xb3, 0x8c, 0xef, 0xb8, 0x80, 0xe6, 0xb3, 0x8d, 0xef, 0xb8, 0x80, 0xe6, 0xb3, 0xa5, 0xef, 0xb8, 0x80, 0xe6, 0xb4, 0x96, 0xef, 0xb8, 0x80, 0xe6, 0xb4, 0x9b, 0xef, 0xb8, 0x80, 0xe6, 0xb4, 0x9e, 0xef, 0xb8, 0x80, 0xe6, 0xb4, 0xb4, 0xef, 0xb8, 0x80, 0xe6, 0xb4, 0xbe, 0xef, 0xb8, 0x80, 0xe6, 0xb5, 0x81, 0xef, 0xb8, 0x80, 0xe6, 0xb5, 0x81, 0xef, 0xb8, 0x81, 0xe6, 0xb5, 0x81, 0xef, 0xb8, 0x82, 0xe6, 0xb5, 0xa9, 0xef, 0xb8, 0x80, 0xe6, 0xb5, 0xaa, 0xef, 0xb8, 0x80, 0xe6, 0xb5, 0xb7, 0xef, 0xb8, 0x80, 0xe6, 0xb5, 0xb7, 0xef, 0xb8, 0x81, 0xe6, 0xb5, 0xb8, 0xef, 0xb8, 0x80, 0xe6, 0xb6, 0x85, 0xef, 0xb8, 0x80, 0xe6, 0xb7, 0x8b, 0xef, 0xb8, 0x80, 0xe6, 0xb7, 0x9a, 0xef, 0xb8, 0x80, 0xe6, 0xb7, 0xaa, 0xef, 0xb8, 0x80, 0xe6, 0xb7, 0xb9, 0xef, 0xb8, 0x80, 0xe6, 0xb8, 0x9a, 0xef, 0xb8, 0x80, 0xe6, 0xb8, 0xaf, 0xef, 0xb8, 0x80, 0xe6, 0xb9, 0xae, 0xef, 0xb8, 0x80, 0xe6, 0xba, 0x9c, 0xef, 0xb8, 0x80, 0xe6, 0xba, 0xba, 0xef, 0xb8, 0x80, 0xe6, 0xbb, 0x87, 0xef, 0xb8, 0x80, 0xe6, 0xbb, 0x8b, 0xef, 0xb8, 0x80, 0xe6, 0xbb, 0x8b, 0xef, 0xb8, 0x81, 0xe6, 0xbb, 0x91, 0xef, 0xb8, 0x80, 0xe6, 0xbb, 0x9b, 0xef, 0xb8, 0x80, 0xe6, 0xbc, 0x8f, 0xef, 0xb8, 0x80, 0xe6, 0xbc, 0xa2, 0xef, 0xb8, 0x80, 0xe6, 0xbc, 0xa2, 0xef, 0xb8, 0x81, 0xe6, 0xbc, 0xa3, 0xef, 0xb8, 0x80, 0xe6, 0xbd, 0xae, 0xef, 0xb8, 0x80, 0xe6, 0xbf, 0x86, 0xef, 0xb8, 0x80, 0xe6, 0xbf, 0xab, 0xef, 0xb8, 0x80, 0xa]),
  ([0xef, 0xa6, 0x84, 0xf0, 0xaf, 0xa4, 0x95, 0xef, 0xaa, 0x9b, 0xf0, 0xaf, 0xa4, 0x94, 0xf0, 0xaf, 0xa4, 0x93, 0xf0, 0xaf, 0xa4, 0x97, 0xf0, 0xaf, 0xa0, 0xb5, 0xf0, 0xaf, 0xa4, 0x99, 0xf0, 0xaf, 0xa4, 0x98, 0xef, 0xa7, 0xbb, 0xf0, 0xaf, 0xa4, 0x9a, 0xef, 0xa6, 0x9f, 0xef, 0xa4, 0x96, 0xf0, 0xaf, 0xa4, 0x9c, 0xef, 0xa6, 0x93, 0xef, 0xa9, 0x88, 0xef, 0xaa, 0x9c, 0xf0, 0xaf, 0xa4, 0x9e, 0xef, 0xa7, 0x80, 0xef, 0xa7, 0xae, 0xef, 0xa4, 0xb2, 0xef, 0xa4, 0x9e, 0xf0, 0xaf, 0xa4, 0xa0, 0xef, 0xa9, 0x89, 0xef, 0xaa, 0x9e, 0xf0, 0xaf, 0xa4, 0xa1, 0xf0, 0xaf, 0xa4, 0xa2, 0xef, 0xa5, 0x86, 0xf0, 0xaf, 0xa4, 0xa4, 0xf0, 0xaf, 0xa4, 0xa5, 0xef, 0xaa, 0x9f, 0xef, 0xa7, 0xba, 0xef, 0xa4, 0xab, 0xef, 0xa8, 0x96, 0xef, 0xaa, 0xa0, 0xef, 0xa6, 0xa7, 0xf0, 0xaf, 0xa4, 0xa8, 0xef, 0xa5, 0xa1, 0xef, 0xa7, 0x9b, 0xf0, 0xaf, 0xa4, 0xa9, 0xa], [0xe6, 0xbf, 0xbe, 0xef, 0xb8, 0x80, 0xe7, 0x80, 0x9b, 0xef, 0xb8, 0x80, 0xe7, 0x80, 0x9e, 0xef, 0xb8, 0x80, 0xe7, 0x80, 0x9e, 0xef, 0xb8, 0x81, 0xe7, 0x80, 0xb9, 0xef, 0xb8, 0x80, 0xe7, 0x81, 0x8a, 0xef, 0xb8, 0x80, 0xe7, 0x81, 0xb0, 0xef, 0xb8, 0x80, 0xe7, 0x81, 0xb7, 0xef, 0xb8, 0x80, 0xe7, 0x81, 0xbd, 0xef, 0xb8, 0x80, 0xe7, 0x82, 0x99, 0xef, 0xb8, 0x80, 0xe7, 0x82, 0xad, 0xef, 0xb8, 0x80, 0xe7, 0x83, 0x88, 0xef, 0xb8, 0x80, 0xe7, 0x83, 0x99, 0xef, 0xb8, 0x80, 0xe7, 0x85, 0x85, 0xef, 0xb8, 0x80, 0xe7, 0x85, 0x89, 0xef, 0xb8, 0x80, 0xe7, 0x85, 0xae, 0xef, 0xb8, 0x80, 0xe7, 0x85, 0xae, 0xef, 0xb8, 0x81, 0xe7, 0x86, 0x9c, 0xef, 0xb8, 0x80, 0xe7, 0x87, 0x8e, 0xef, 0xb8, 0x80, 0xe7, 0x87, 0x90, 0xef, 0xb8, 0x80, 0xe7, 0x88, 0x90, 0xef, 0xb8, 0x80, 0xe7, 0x88, 0x9b, 0xef, 0xb8, 0x80, 0xe7, 0x88, 0xa8, 0xef, 0xb8, 0x80, 0xe7, 0x88, 0xab, 0xef, 0xb8, 0x80, 0xe7, 0x88, 0xb5, 0xef, 0xb8, 0x80, 0xe7, 0x88, 0xb5, 0xef, 0xb8, 0x81, 0xe7, 0x89, 0x90, 0xef, 0xb8, 0x80, 0xe7, 0x89, 0xa2, 0xef, 0xb8, 0x80, 0xe7, 0x8a, 0x80, 0xef, 0xb8, 0x80, 0xe7, 0x8a, 0x95, 0xef, 0xb8, 0x80, 0xe7, 0x8a, 0xaf, 0xef, 0xb8, 0x80, 0xe7, 0x8b, 0x80, 0xef, 0xb8, 0x80, 0xe7, 0x8b, 0xbc, 0xef, 0xb8, 0x80, 0xe7, 0x8c, 0xaa, 0xef, 0xb8, 0x80, 0xe7, 0x8c, 0xaa, 0xef, 0xb8, 0x81, 0xe7, 0x8d, 0xb5, 0xef, 0xb8, 0x80, 0xe7, 0x8d, 0xba, 0xef, 0xb8, 0x80, 0xe7, 0x8e, 0x87, 0xef, 0xb8, 0x80, 0xe7, 0x8e, 0x87, 0xef, 0xb8, 0x81, 0xe7, 0x8e, 0x8b, 0xef, 0xb8, 0x80, 0xa])]

def sampleInvalid2 : List (List Nat × List Nat) := [
  ([0xf0, 0xaf, 0xa4, 0xab, 0xef, 0xa6, 0xad, 0xef, 0xa4, 0x97, 0xef, 0xa7, 0xa4, 0xef, 0xa7, 0x8c, 0xef, 0xa9, 0x8a, 0xf0, 0xaf, 0xa4, 0xae, 0xf0, 0xaf, 0xa4, 0xaf, 0xef, 0xa6, 0xae, 0xef, 0xaa, 0xa1, 0xf0, 0xaf, 0xa4, 0xb0, 0xf0, 0xaf, 0xa4, 0xb1, 0xef, 0xa6, 0x94, 0xef, 0xa7, 0xaf, 0xf0, 0xaf, 0xa4, 0xb2, 0xef, 0xaa, 0xa2, 0xf0, 0xaf, 0xa4, 0xb4, 0xef, 0xaa, 0xa3, 0xf0, 0xaf, 0xa4, 0xb6, 0xef, 0xa7, 0x8d, 0xef, 0xa5, 0xb6, 0xef, 0xa5, 0xa2, 0xf0, 0xaf, 0xa4, 0xb8, 0xef, 0xa7, 0xa5, 0xf0, 0xaf, 0xa4, 0xba, 0xef, 0xaa, 0xa4, 0xef, 0xaa, 0xa5, 0xef, 0xa7, 0x81, 0xef, 0xa4, 0x8e, 0xef, 0xa8, 0x97, 0xef, 0xaa, 0xa6, 0xef, 0xaa, 0xa7, 0xef, 0xa4, 0xb3, 0xef, 0xaa, 0xa8, 0xf0, 0xaf, 0xa5, 0x80, 0xef, 0xa5, 0xad, 0xf0, 0xaf, 0xa5, 0x85, 0xf0, 0xaf, 0xa5, 0x86, 0xf0, 0xaf, 0xa5, 0x87, 0xef, 0xaa, 0xaa, 0xa], [0xe7, 0x8e, 0xa5, 0xef, 0xb8, 0x80, 0xe7, 0x8e, 0xb2, 0xef, 0xb8, 0x80, 0xe7, 0x8f, 0x9e, 0xef, 0xb8, 0x80, 0xe7, 0x90, 0x86, 0xef, 0xb8, 0x80, 0xe7, 0x90, 0x89, 0xef, 0xb8, 0x80, 0xe7, 0x90, 0xa2, 0xef, 0xb8, 0x80, 0xe7, 0x91, 0x87, 0xef, 0xb8, 0x80, 0xe7, 0x91, 0x9c, 0xef, 0xb8, 0x80, 0xe7, 0x91, 0xa9, 0xef, 0xb8, 0x80, 0xe7, 0x91, 0xb1, 0xef, 0xb8, 0x80, 0xe7, 0x91, 0xb1, 0xef, 0xb8, 0x81, 0xe7, 0x92, 0x85, 0xef, 0xb8, 0x80, 0xe7, 0x92, 0x89, 0xef, 0xb8, 0x80, 0xe7, 0x92, 0x98, 0xef, 0xb8, 0x80, 0xe7, 0x93, 0x8a, 0xef, 0xb8, 0x80, 0xe7, 0x94, 0x86, 0xef, 0xb8, 0x80, 0xe7, 0x94, 0xa4, 0xef, 0xb8, 0x80, 0xe7, 0x94, 0xbb, 0xef, 0xb8, 0x80, 0xe7, 0x94, 0xbe, 0xef, 0xb8, 0x80, 0xe7, 0x95, 0x99, 0xef, 0xb8, 0x80, 0xe7, 0x95, 0xa5, 0xef, 0xb8, 0x80, 0xe7, 0x95, 0xb0, 0xef, 0xb8, 0x80, 0xe7, 0x95, 0xb0, 0xef, 0xb8, 0x81, 0xe7, 0x97, 0xa2, 0xef, 0xb8, 0x80, 0xe7, 0x98, 0x90, 0xef, 0xb8, 0x80, 0xe7, 0x98, 0x9d, 0xef, 0xb8, 0x80, 0xe7, 0x98, 0x9f, 0xef, 0xb8, 0x80, 0xe7, 0x99, 0x82, 0xef, 0xb8, 0x80, 0xe7, 0x99, 0xa9, 0xef, 0xb8, 0x80, 0xe7, 0x9b, 0x8a, 0xef, 0xb8, 0x80, 0xe7, 0x9b, 0x8a, 0xef, 0xb8, 0x81, 0xe7, 0x9b, 0x9b, 0xef, 0xb8, 0x80, 0xe7, 0x9b, 0xa7, 0xef, 0xb8, 0x80, 0xe7, 0x9b, 0xb4, 0xef, 0xb8, 0x80, 0xe7, 0x9b, 0xb4, 0xef, 0xb8, 0x81, 0xe7, 0x9c, 0x81, 0xef, 0xb8, 0x80, 0xe7, 0x9c, 0x9e, 0xef, 0xb8, 0x80, 0xe7, 0x9c, 0x9f, 0xef, 0xb8, 0x80, 0xe7, 0x9c, 0x9f, 0xef, 0xb8, 0x81, 0xe7, 0x9d, 0x80, 0xef, 0xb8, 0x80, 0xa]),
  ([0xef, 0xaa, 0xa9, 0xf0, 0xaf, 0xa5, 0x88, 0xf0, 0xaf, 0xa5, 0x8a, 0xef, 0xaa, 0x9d, 0xf0, 0xaf, 0xa5, 0x8e, 0xef, 0xa7, 0x8e, 0xef, 0xa4, 0xbb, 0xf0, 0xaf, 0xa5, 0x8f, 0xef, 0xa9, 0x8b, 0xef, 0xa5, 0x87, 0xef, 0xaa, 0xab, 0xf0, 0xaf, 0xa5, 0x90, 0xef, 0xa5, 0xa4, 0xef, 0xa6, 0x85, 0xef, 0xa8, 0x98, 0xef, 0xa9, 0x8c, 0xef, 0xa9, 0x8e, 0xef, 0xa9, 0x8d, 0xef, 0xa9, 0x8f, 0xef, 0xa9, 0x90, 0xf0, 0xaf, 0xa5, 0x93, 0xef, 0xa9, 0x91, 0xef, 0xa8, 0x99, 0xef, 0xa8, 0x9a, 0xef, 0xa4, 0xbc, 0xef, 0xa9, 0x92, 0xef, 0xa9, 0x93, 0xef, 0xa8, 0x9b, 0xf0, 0xaf, 0xa5, 0x96, 0xef, 0xa6, 0xb6, 0xef, 0xa6, 0x95, 0xf0, 0xaf, 0xa5, 0x97, 0xef, 0xa5, 0x96, 0xef, 0xa9, 0x94, 0xf0, 0xaf, 0xa5, 0x99, 0xf0, 0xaf, 0xa5, 0x9a, 0xf0, 0xaf, 0xa5, 0x9b, 0xef, 0xa9, 0x95, 0xef, 0xaa, 0xac, 0xef, 0xa7, 0xb7, 0xa], [0xe7, 0x9d, 0x8a, 0xef, 0xb8, 0x80, 0xe7, 0x9d, 0x8a, 0xef, 0xb8, 0x81, 0xe7, 0x9e, 0x8b, 0xef, 0xb8, 0x80, 0xe7, 0x9e, 0xa7, 0xef, 0xb8, 0x80, 0xe7, 0xa1, 0x8e, 0xef, 0xb8, 0x80, 0xe7, 0xa1, 0xab, 0xef, 0xb8, 0x80, 0xe7, 0xa2, 0x8c, 0xef, 0xb8, 0x80, 0xe7, 0xa2, 0x8c, 0xef, 0xb8, 0x81, 0xe7, 0xa2, 0x91, 0xef, 0xb8, 0x80, 0xe7, 0xa3, 0x8a, 0xef, 0xb8, 0x80, 0xe7, 0xa3, 0x8c, 0xef, 0xb8, 0x80, 0xe7, 0xa3, 0x8c, 0xef, 0xb8, 0x81, 0xe7, 0xa3, 0xbb, 0xef, 0xb8, 0x80, 0xe7, 0xa4, 0xaa, 0xef, 0xb8, 0x80, 0xe7, 0xa4, 0xbc, 0xef, 0xb8, 0x80, 0xe7, 0xa4, 0xbe, 0xef, 0xb8, 0x80, 0xe7, 0xa5, 0x88, 0xef, 0xb8, 0x80, 0xe7, 0xa5, 0x89, 0xef, 0xb8, 0x80, 0xe7, 0xa5, 0x90, 0xef, 0xb8, 0x80, 0xe7, 0xa5, 0x96, 0xef, 0xb8, 0x80, 0xe7, 0xa5, 0x96, 0xef, 0xb8, 0x81, 0xe7, 0xa5, 0x9d, 0xef, 0xb8, 0x80, 0xe7, 0xa5, 0x9e, 0xef, 0xb8, 0x80, 0xe7, 0xa5, 0xa5, 0xef, 0xb8, 0x80, 0xe7, 0xa5, 0xbf, 0xef, 0xb8, 0x80, 0xe7, 0xa6, 0x8d, 0xef, 0xb8, 0x80, 0xe7, 0xa6, 0x8e, 0xef, 0xb8, 0x80, 0xe7, 0xa6, 0x8f, 0xef, 0xb8, 0x80, 0xe7, 0xa6, 0x8f, 0xef, 0xb8, 0x81, 0xe7, 0xa6, 0xae, 0xef, 0xb8, 0x80, 0xe7, 0xa7, 0x8a, 0xef, 0xb8, 0x80, 0xe7, 0xa7, 0xab, 0xef, 0xb8, 0x80, 0xe7, 0xa8, 0x9c, 0xef, 0xb8, 0x80, 0xe7, 0xa9, 0x80, 0xef, 0xb8, 0x80, 0xe7, 0xa9, 0x80, 0xef, 0xb8, 0x81, 0xe7, 0xa9, 0x8a, 0xef, 0xb8, 0x80, 0xe7, 0xa9, 0x8f, 0xef, 0xb8, 0x80, 0xe7, 0xaa, 0x81, 0xef, 0xb8, 0x80, 0xe7, 0xaa, 0xb1, 0xef, 0xb8, 0x80, 0xe7, 0xab, 0x8b, 0xef, 0xb8, 0x80, 0xa]),
  ([0xf0, 0xaf, 0xa5, 0x9f, 0xef, 0xa7, 0xb8, 0xef, 0xa9, 0x96, 0xef, 0xaa, 0xad, 0xf0, 0xaf, 0xa5, 0xa2, 0xf0, 0xaf, 0xa5, 0xa3, 0xef, 0xa6, 0xa6, 0xef, 0xa5, 0x84, 0xef, 0xaa, 0xae, 0xef, 0xa7, 0xb9, 0xef, 0xa8, 0x9d, 0xf0, 0xaf, 0xa5, 0xa6, 0xef, 0xa8, 0x83, 0xf0, 0xaf, 0xa5, 0xa9, 0xef, 0xa5, 0xbb, 0xf0, 0xaf, 0xa5, 0xa8, 0xf0, 0xaf, 0xa5, 0xaa, 0xef, 0xa7, 0x8f, 0xef, 0xa5, 0xaa, 0xef, 0xa5, 0x8f, 0xef, 0xaa, 0xaf, 0xf0, 0xaf, 0xa5, 0xac, 0xef, 0xa4, 0xbd, 0xef, 0xa5, 0x97, 0xf0, 0xaf, 0xa5, 0xae, 0xef, 0xa6, 0x96, 0xef, 0xa9, 0x97, 0xef, 0xaa, 0xb0, 0xf0, 0xaf, 0xa5, 0xaf, 0xef, 0xa9, 0x98, 0xef, 0xa5, 0x90, 0xef, 0xa9, 0x99, 0xf0, 0xaf, 0xa5, 0xb0, 0xef, 0xaa, 0xb1, 0xef, 0xa9, 0x9a, 0xef, 0xa7, 0xa6, 0xf0, 0xaf, 0xa5, 0xb6, 0xef, 0xa4, 0x8f, 0xf0, 0xaf, 0xa5, 0xb8, 0xef, 0xa6, 0xaf, 0xa], [0xe7, 0xab, 0xae, 0xef, 0xb8, 0x80, 0xe7, 0xac, 0xa0, 0xef, 0xb8, 0x80, 0xe7, 0xaf, 0x80, 0xef, 0xb8, 0x80, 0xe7, 0xaf, 0x80, 0xef, 0xb8, 0x81, 0xe7, 0xaf, 0x86, 0xef, 0xb8, 0x80, 0xe7, 0xaf, 0x89, 0xef, 0xb8, 0x80, 0xe7, 0xb0, 0xbe, 0xef, 0xb8, 0x80, 0xe7, 0xb1, 0xa0, 0xef, 0xb8, 0x80, 0xe7, 0xb1, 0xbb, 0xef, 0xb8, 0x80, 0xe7, 0xb2, 0x92, 0xef, 0xb8, 0x80, 0xe7, 0xb2, 0xbe, 0xef, 0xb8, 0x80, 0xe7, 0xb3, 0x92, 0xef, 0xb8, 0x80, 0xe7, 0xb3, 0x96, 0xef, 0xb8, 0x80, 0xe7, 0xb3, 0xa3, 0xef, 0xb8, 0x80, 0xe7, 0xb3, 0xa7, 0xef, 0xb8, 0x80, 0xe7, 0xb3, 0xa8, 0xef, 0xb8, 0x80, 0xe7, 0xb4, 0x80, 0xef, 0xb8, 0x80, 0xe7, 0xb4, 0x90, 0xef, 0xb8, 0x80, 0xe7, 0xb4, 0xa2, 0xef, 0xb8, 0x80, 0xe7, 0xb4, 0xaf, 0xef, 0xb8, 0x80, 0xe7, 0xb5, 0x9b, 0xef, 0xb8, 0x80, 0xe7, 0xb5, 0xa3, 0xef, 0xb8, 0x80, 0xe7, 0xb6, 0xa0, 0xef, 0xb8, 0x80, 0xe7, 0xb6, 0xbe, 0xef, 0xb8, 0x80, 0xe7, 0xb7, 0x87, 0xef, 0xb8, 0x80, 0xe7, 0xb7, 0xb4, 0xef, 0xb8, 0x80, 0xe7, 0xb7, 0xb4, 0xef, 0xb8, 0x81, 0xe7, 0xb7, 0xb4, 0xef, 0xb8, 0x82, 0xe7, 0xb8, 0x82, 0xef, 0xb8, 0x80, 0xe7, 0xb8, 0x89, 0xef, 0xb8, 0x80, 0xe7, 0xb8, 0xb7, 0xef, 0xb8, 0x80, 0xe7, 0xb9, 0x81, 0xef, 0xb8, 0x80, 0xe7, 0xb9, 0x85, 0xef, 0xb8, 0x80, 0xe7, 0xbc, 0xbe, 0xef, 0xb8, 0x80, 0xe7, 0xbd, 0xb2, 0xef, 0xb8, 0x80, 0xe7, 0xbd, 0xb9, 0xef, 0xb8, 0x80, 0xe7, 0xbd, 0xba, 0xef, 0xb8, 0x80, 0xe7, 0xbe, 0x85, 0xef, 0xb8, 0x80, 0xe7, 0xbe, 0x95, 0xef, 0xb8, 0x80, 0xe7, 0xbe, 0x9a, 0xef, 0xb8, 0x80, 0xa]),
  ([0xef, 0xa8, 0x9e, 0xf0, 0xaf, 0xa5, 0xb9, 0xef, 0xa4, 0xb4, 0xef, 0xa9, 0x9b, 0xef, 0xaa, 0xb2, 0xf0, 0xaf, 0xa5, 0xba, 0xef, 0xa6, 0xb0, 0xf0, 0xaf, 0xa5, 0xbd, 0xef, 0xa6, 0x97, 0xf0, 0xaf, 0xa5, 0xbf, 0xef, 0xa5, 0x85, 0xef, 0xa5, 0x93, 0xf0, 0xaf, 0xa3, 0x96, 0xf0, 0xaf, 0xa6, 0x82, 0xf0, 0xaf, 0xa6, 0x83, 0xf0, 0xaf, 0xa6, 0x85, 0xef, 0xa4, 0xa6, 0xef, 0xa7, 0xb6, 0xef, 0xa9, 0x9c, 0xf0, 0xaf, 0xa2, 0x93, 0xf0, 0xaf, 0xa6, 0x8b, 0xf0, 0xaf, 0xa6, 0x8c, 0xef, 0xa9, 0xad, 0xef, 0xa5, 0xbc, 0xef, 0xa9, 0x9d, 0xef, 0xa9, 0x9e, 0xf0, 0xaf, 0xa6, 0x90, 0xf0, 0xaf, 0xa6, 0x8f, 0xf0, 0xaf, 0xa6, 0x91, 0xf0, 0xaf, 0xa6, 0x93, 0xf0, 0xaf, 0xa6, 0x94, 0xf0, 0xaf, 0xa6, 0x95, 0xef, 0xa5, 0xb4, 0xf0, 0xaf, 0xa6, 0x98, 0xf0, 0xaf, 0xa6, 0x96, 0xf0, 0xaf, 0xa6, 0x99, 0xf0, 0xaf, 0xa6, 0x9c, 0xef, 0xa7, 0xbe, 0xef, 0xaa, 0xb3, 0xf0, 0xaf, 0xa6, 0xa0, 0xa], [0xe7, 0xbe, 0xbd, 0xef, 0xb8, 0x80, 0xe7, 0xbf, 0xba, 0xef, 0xb8, 0x80, 0xe8, 0x80, 0x81, 0xef, 0xb8, 0x80, 0xe8, 0x80, 0x85, 0xef, 0xb8, 0x80, 0xe8, 0x80, 0x85, 0xef, 0xb8, 0x81, 0xe8, 0x80, 0x85, 0xef, 0xb8, 0x82, 0xe8, 0x81, 0x86, 0xef, 0xb8, 0x80, 0xe8, 0x81, 0xa0, 0xef, 0xb8, 0x80, 0xe8, 0x81, 0xaf, 0xef, 0xb8, 0x80, 0xe8, 0x81, 0xb0, 0xef, 0xb8, 0x80, 0xe8, 0x81, 0xbe, 0xef, 0xb8, 0x80, 0xe8, 0x82, 0x8b, 0xef, 0xb8, 0x80, 0xe8, 0x82, 0xad, 0xef, 0xb8, 0x80, 0xe8, 0x82, 0xb2, 0xef, 0xb8, 0x80, 0xe8, 0x84, 0x83, 0xef, 0xb8, 0x80, 0xe8, 0x84, 0xbe, 0xef, 0xb8, 0x80, 0xe8, 0x87, 0x98, 0xef, 0xb8, 0x80, 0xe8, 0x87, 0xa8, 0xef, 0xb8, 0x80, 0xe8, 0x87, 0xad, 0xef, 0xb8, 0x80, 0xe8, 0x88, 0x81, 0xef, 0xb8, 0x80, 0xe8, 0x88, 0x81, 0xef, 0xb8, 0x81, 0xe8, 0x88, 0x84, 0xef, 0xb8, 0x80, 0xe8, 0x88, 0x98, 0xef, 0xb8, 0x80, 0xe8, 0x89, 0xaf, 0xef, 0xb8, 0x80, 0xe8, 0x89, 0xb9, 0xef, 0xb8, 0x80, 0xe8, 0x89, 0xb9, 0xef, 0xb8, 0x81, 0xe8, 0x8a, 0x8b, 0xef, 0xb8, 0x80, 0xe8, 0x8a, 0x91, 0xef, 0xb8, 0x80, 0xe8, 0x8a, 0x9d, 0xef, 0xb8, 0x80, 0xe8, 0x8a, 0xb1, 0xef, 0xb8, 0x80, 0xe8, 0x8a, 0xb3, 0xef, 0xb8, 0x80, 0xe8, 0x8a, 0xbd, 0xef, 0xb8, 0x80, 0xe8, 0x8b, 0xa5, 0xef, 0xb8, 0x80, 0xe8, 0x8b, 0xa5, 0xef, 0xb8, 0x81, 0xe8, 0x8b, 0xa6, 0xef, 0xb8, 0x80, 0xe8, 0x8c, 0x9d, 0xef, 0xb8, 0x80, 0xe8, 0x8c, 0xa3, 0xef, 0xb8, 0x80, 0xe8, 0x8c, 0xb6, 0xef, 0xb8, 0x80, 0xe8, 0x8d, 0x92, 0xef, 0xb8, 0x80, 0xe8, 0x8d, 0x93, 0xef, 0xb8, 0x80, 0xa]),
  ([0xf0, 0xaf, 0xa6, 0x9a, 0xf0, 0xaf, 0xa6, 0x9b, 0xf0, 0xaf, 0xa6, 0x9d, 0xef, 0xa4, 0xbe, 0xf0, 0xaf, 0xa6, 0xa1, 0xf0, 0xaf, 0xa6, 0xa2, 0xf0, 0xaf, 0xa6, 0xa3, 0xf0, 0xaf, 0xa6, 0x9e, 0xef, 0xaa, 0xb4, 0xef, 0xa5, 0x98, 0xef, 0xa4, 0x98, 0xef, 0xa5, 0xae, 0xef, 0xa9, 0x9f, 0xf0, 0xaf, 0xa6, 0x9f, 0xef, 0xa6, 0x99, 0xf0, 0xaf, 0xa6, 0xa8, 0xf0, 0xaf, 0xa6, 0xa9, 0xef, 0xa7, 0x82, 0xf0, 0xaf, 0xa6, 0xaa, 0xf0, 0xaf, 0xa6, 0xac, 0xef, 0xa4, 0xa3, 0xef, 0xa7, 0xb0, 0xef, 0xa4, 0xb5, 0xef, 0xa8, 0xa0, 0xef, 0xa4, 0x9f, 0xef, 0xa4, 0x90, 0xf0, 0xaf, 0xa6, 0xb3, 0xef, 0xa4, 0xb6, 0xf0, 0xaf, 0xa6, 0xb4, 0xf0, 0xaf, 0xa6, 0xb5, 0xf0, 0xaf, 0xa6, 0xb6, 0xf0, 0xaf, 0xa6, 0xb8, 0xf0, 0xaf, 0xa6, 0xb7, 0xf0, 0xaf, 0xa6, 0xba, 0xf0, 0xaf, 0xa6, 0xb9, 0xf0, 0xaf, 0xa6, 0xbc, 0xf0, 0xaf, 0xa6, 0xbd, 0xef, 0xaa, 0xb5, 0xf0, 0xaf, 0xa6, 0xbb, 0xf0, 0xaf, 0xa6, 0xbe, 0xa], [0xe8, 0x8d, 0xa3, 0xef, 0xb8, 0x80, 0xe8, 0x8e, 0xad, 0xef, 0xb8, 0x80, 0xe8, 0x8e, 0xbd, 0xef, 0xb8, 0x80, 0xe8, 0x8f, 0x89, 0xef, 0xb8, 0x80, 0xe8, 0x8f, 0x8a, 0xef, 0xb8, 0x80, 0xe8, 0x8f, 0x8c, 0xef, 0xb8, 0x80, 0xe8, 0x8f, 0x9c, 0xef, 0xb8, 0x80, 0xe8, 0x8f, 0xa7, 0xef, 0xb8, 0x80, 0xe8, 0x8f, 0xaf, 0xef, 0xb8, 0x80, 0xe8, 0x8f, 0xb1, 0xef, 0xb8, 0x80, 0xe8, 0x90, 0xbd, 0xef, 0xb8, 0x80, 0xe8, 0x91, 0x89, 0xef, 0xb8, 0x80, 0xe8, 0x91, 0x97, 0xef, 0xb8, 0x80, 0xe8, 0x91, 0x97, 0xef, 0xb8, 0x81, 0xe8, 0x93, 0xae, 0xef, 0xb8, 0x80, 0xe8, 0x93, 0xb1, 0xef, 0xb8, 0x80, 0xe8, 0x93, 0xb3, 0xef, 0xb8, 0x80, 0xe8, 0x93, 0xbc, 0xef, 0xb8, 0x80, 0xe8, 0x94, 0x96, 0xef, 0xb8, 0x80, 0xe8, 0x95, 0xa4, 0xef, 0xb8, 0x80, 0xe8, 0x97, 0x8d, 0xef, 0xb8, 0x80, 0xe8, 0x97, 0xba, 0xef, 0xb8, 0x80, 0xe8, 0x98, 0x86, 0xef, 0xb8, 0x80, 0xe8, 0x98, 0x92, 0xef, 0xb8, 0x80, 0xe8, 0x98, 0xad, 0xef, 0xb8, 0x80, 0xe8, 0x98, 0xbf, 0xef, 0xb8, 0x80, 0xe8, 0x99, 0x90, 0xef, 0xb8, 0x80, 0xe8, 0x99, 0x9c, 0xef, 0xb8, 0x80, 0xe8, 0x99, 0x9c, 0xef, 0xb8, 0x81, 0xe8, 0x99, 0xa7, 0xef, 0xb8, 0x80, 0xe8, 0x99, 0xa9, 0xef, 0xb8, 0x80, 0xe8, 0x9a, 0x88, 0xef, 0xb8, 0x80, 0xe8, 0x9a, 0xa9, 0xef, 0xb8, 0x80, 0xe8, 0x9b, 0xa2, 0xef, 0xb8, 0x80, 0xe8, 0x9c, 0x8e, 0xef, 0xb8, 0x80, 0xe8, 0x9c, 0xa8, 0xef, 0xb8, 0x80, 0xe8, 0x9d, 0xab, 0xef, 0xb8, 0x80, 0xe8, 0x9d, 0xb9, 0xef, 0xb8, 0x80, 0xe8, 0x9d, 0xb9, 0xef, 0xb8, 0x81, 0xe8, 0x9e, 0x86, 0xef, 0xb8, 0x80, 0xa]),
  ([0xef, 0xa4, 0x91, 0xf0, 0xaf, 0xa7, 0x80, 0xf0, 0xaf, 0xa7, 0x81, 0xef, 0xa4, 0xa7, 0xef, 0xa8, 0x88, 0xf0, 0xaf, 0xa7, 0x83, 0xf0, 0xaf, 0xa7, 0x84, 0xef, 0xa6, 0xa0, 0xef, 0xa7, 0xa7, 0xf0, 0xaf, 0xa7, 0x86, 0xf0, 0xaf, 0xa7, 0x87, 0xef, 0xa7, 0xa8, 0xef, 0xa4, 0x92, 0xf0, 0xaf, 0xa7, 0x89, 0xef, 0xa9, 0xa0, 0xef, 0xaa, 0xb6, 0xef, 0xa4, 0xa4, 0xef, 0xaa, 0xb7, 0xef, 0xa8, 0x8a, 0xef, 0xa9, 0xa1, 0xef, 0xaa, 0xb8, 0xf0, 0xaf, 0xa7, 0x8f, 0xef, 0xa5, 0xaf, 0xef, 0xa6, 0xa1, 0xef, 0xaa, 0xb9, 0xef, 0xaa, 0xbb, 0xef, 0xa5, 0xbd, 0xef, 0xa5, 0x81, 0xef, 0xaa, 0xbe, 0xf0, 0xaf, 0xa7, 0x90, 0xef, 0xa8, 0xa2, 0xef, 0xaa, 0xba, 0xef, 0xa5, 0x9d, 0xef, 0xaa, 0xbd, 0xef, 0xa9, 0xa2, 0xef, 0xaa, 0xbc, 0xef, 0xa9, 0xa3, 0xef, 0xaa, 0xbf, 0xef, 0xa7, 0xbc, 0xef, 0xa5, 0x9a, 0xa], [0xe8, 0x9e, 0xba, 0xef, 0xb8, 0x80, 0xe8, 0x9f, 0xa1, 0xef, 0xb8, 0x80, 0xe8, 0xa0, 0x81, 0xef, 0xb8, 0x80, 0xe8, 0xa0, 0x9f, 0xef, 0xb8, 0x80, 0xe8, 0xa1, 0x8c, 0xef, 0xb8, 0x80, 0xe8, 0xa1, 0xa0, 0xef, 0xb8, 0x80, 0xe8, 0xa1, 0xa3, 0xef, 0xb8, 0x80, 0xe8, 0xa3, 0x82, 0xef, 0xb8, 0x80, 0xe8, 0xa3, 0x8f, 0xef, 0xb8, 0x80, 0xe8, 0xa3, 0x97, 0xef, 0xb8, 0x80, 0xe8, 0xa3, 0x9e, 0xef, 0xb8, 0x80, 0xe8, 0xa3, 0xa1, 0xef, 0xb8, 0x80, 0xe8, 0xa3, 0xb8, 0xef, 0xb8, 0x80, 0xe8, 0xa3, 0xba, 0xef, 0xb8, 0x80, 0xe8, 0xa4, 0x90, 0xef, 0xb8, 0x80, 0xe8, 0xa5, 0x81, 0xef, 0xb8, 0x80, 0xe8, 0xa5, 0xa4, 0xef, 0xb8, 0x80, 0xe8, 0xa6, 0x86, 0xef, 0xb8, 0x80, 0xe8, 0xa6, 0x8b, 0xef, 0xb8, 0x80, 0xe8, 0xa6, 0x96, 0xef, 0xb8, 0x80, 0xe8, 0xa6, 0x96, 0xef, 0xb8, 0x81, 0xe8, 0xaa, 0xa0, 0xef, 0xb8, 0x80, 0xe8, 0xaa, 0xaa, 0xef, 0xb8, 0x80, 0xe8, 0xaa, 0xaa, 0xef, 0xb8, 0x81, 0xe8, 0xaa, 0xbf, 0xef, 0xb8, 0x80, 0xe8, 0xab, 0x8b, 0xef, 0xb8, 0x80, 0xe8, 0xab, 0x92, 0xef, 0xb8, 0x80, 0xe8, 0xab, 0x96, 0xef, 0xb8, 0x80, 0xe8, 0xab, 0xad, 0xef, 0xb8, 0x80, 0xe8, 0xab, 0xad, 0xef, 0xb8, 0x81, 0xe8, 0xab, 0xb8, 0xef, 0xb8, 0x80, 0xe8, 0xab, 0xb8, 0xef, 0xb8, 0x81, 0xe8, 0xab, 0xbe, 0xef, 0xb8, 0x80, 0xe8, 0xab, 0xbe, 0xef, 0xb8, 0x81, 0xe8, 0xac, 0x81, 0xef, 0xb8, 0x80, 0xe8, 0xac, 0x81, 0xef, 0xb8, 0x81, 0xe8, 0xac, 0xb9, 0xef, 0xb8, 0x80, 0xe8, 0xac, 0xb9, 0xef, 0xb8, 0x81, 0xe8, 0xad, 0x98, 0xef, 0xb8, 0x80, 0xe8, 0xae, 0x80, 0xef, 0xb8, 0x80, 0xa]),
  ([0xef, 0xab, 0x80, 0xf0, 0xaf, 0xa7, 0x91, 0xef, 0xa4, 0x80, 0xf0, 0xaf, 0xa7, 0x92, 0xf0, 0xaf, 0xa7, 0x94, 0xf0, 0xaf, 0xa7, 0x95, 0xef, 0xa5, 0x88, 0xef, 0xa4, 0x83, 0xef, 0xa9, 0xa4, 0xef, 0xa9, 0xa5, 0xef, 0xab, 0x81, 0xf0, 0xaf, 0xa7, 0x96, 0xf0, 0xaf, 0xa7, 0x97, 0xf0, 0xaf, 0xa7, 0x9b, 0xf0, 0xaf, 0xa7, 0x9a, 0xef, 0xa4, 0xb7, 0xf0, 0xaf, 0xa7, 0x9c, 0xef, 0xa4, 0x82, 0xf0, 0xaf, 0xa7, 0x9e, 0xef, 0xa6, 0x98, 0xef, 0xa7, 0x97, 0xef, 0xab, 0x82, 0xf0, 0xaf, 0xa7, 0x9f, 0xef, 0xa8, 0x87, 0xef, 0xa6, 0x8d, 0xf0, 0xaf, 0xa6, 0x8d, 0xef, 0xa5, 0xb1, 0xef, 0xa9, 0xa6, 0xef, 0xa6, 0x9a, 0xef, 0xa8, 0xa5, 0xef, 0xa9, 0xa7, 0xef, 0xab, 0x83, 0xef, 0xa7, 0x83, 0xef, 0xa4, 0x93, 0xf0, 0xaf, 0xa7, 0xa2, 0xef, 0xa4, 0xac, 0xef, 0xa8, 0xae, 0xf0, 0xaf, 0xa7, 0xa3, 0xef, 0xa8, 0xa6, 0xf0, 0xaf, 0xa7, 0xa4, 0xa], [0xe8, 0xae, 0x8a, 0xef, 0xb8, 0x80, 0xe8, 0xae, 0x8a, 0xef, 0xb8, 0x81, 0xe8, 0xb1, 0x88, 0xef, 0xb8, 0x80, 0xe8, 0xb1, 0x95, 0xef, 0xb8, 0x80, 0xe8, 0xb2, 0xab, 0xef, 0xb8, 0x80, 0xe8, 0xb3, 0x81, 0xef, 0xb8, 0x80, 0xe8, 0xb3, 0x82, 0xef, 0xb8, 0x80, 0xe8, 0xb3, 0x88, 0xef, 0xb8, 0x80, 0xe8, 0xb3, 0x93, 0xef, 0xb8, 0x80, 0xe8, 0xb4, 0x88, 0xef, 0xb8, 0x80, 0xe8, 0xb4, 0x88, 0xef, 0xb8, 0x81, 0xe8, 0xb4, 0x9b, 0xef, 0xb8, 0x80, 0xe8, 0xb5, 0xb7, 0xef, 0xb8, 0x80, 0xe8, 0xb6, 0xbc, 0xef, 0xb8, 0x80, 0xe8, 0xb7, 0x8b, 0xef, 0xb8, 0x80, 0xe8, 0xb7, 0xaf, 0xef, 0xb8, 0x80, 0xe8, 0xb7, 0xb0, 0xef, 0xb8, 0x80, 0xe8, 0xbb, 0x8a, 0xef, 0xb8, 0x80, 0xe8, 0xbb, 0x94, 0xef, 0xb8, 0x80, 0xe8, 0xbc, 0xa6, 0xef, 0xb8, 0x80, 0xe8, 0xbc, 0xaa, 0xef, 0xb8, 0x80, 0xe8, 0xbc, 0xb8, 0xef, 0xb8, 0x80, 0xe8, 0xbc, 0xb8, 0xef, 0xb8, 0x81, 0xe8, 0xbc, 0xbb, 0xef, 0xb8, 0x80, 0xe8, 0xbd, 0xa2, 0xef, 0xb8, 0x80, 0xe8, 0xbe, 0x9e, 0xef, 0xb8, 0x80, 0xe8, 0xbe, 0xb0, 0xef, 0xb8, 0x80, 0xe8, 0xbe, 0xb6, 0xef, 0xb8, 0x80, 0xe9, 0x80, 0xa3, 0xef, 0xb8, 0x80, 0xe9, 0x80, 0xb8, 0xef, 0xb8, 0x80, 0xe9, 0x80, 0xb8, 0xef, 0xb8, 0x81, 0xe9, 0x81, 0xb2, 0xef, 0xb8, 0x80, 0xe9, 0x81, 0xbc, 0xef, 0xb8, 0x80, 0xe9, 0x82, 0x8f, 0xef, 0xb8, 0x80, 0xe9, 0x82, 0x94, 0xef, 0xb8, 0x80, 0xe9, 0x83, 0x8e, 0xef, 0xb8, 0x80, 0xe9, 0x83, 0x9e, 0xef, 0xb8, 0x80, 0xe9, 0x83, 0xb1, 0xef, 0xb8, 0x80, 0xe9, 0x83, 0xbd, 0xef, 0xb8, 0x80, 0xe9, 0x84, 0x91, 0xef, 0xb8, 0x80, 0xa]),
  ([0xf0, 0xaf, 0xa7, 0xa6, 0xef, 0xa4, 0x99, 0xef, 0xab, 0x84, 0xef, 0xa6, 0xb7, 0xef, 0xa7, 0xa9, 0xef, 0xa5, 0xbe, 0xef, 0xa4, 0x8a, 0xef, 0xa6, 0xb1, 0xf0, 0xaf, 0xa7, 0xa7, 0xef, 0xab, 0x85, 0xf0, 0xaf, 0xa7, 0xaa, 0xf0, 0xaf, 0xa7, 0xa8, 0xf0, 0xaf, 0xa7, 0xa9, 0xef, 0xa4, 0xbf, 0xef, 0xa6, 0x9b, 0xf0, 0xaf, 0xa7, 0xab, 0xf0, 0xaf, 0xa7, 0xac, 0xf0, 0xaf, 0xa7, 0xae, 0xef, 0xa6, 0x86, 0xf0, 0xaf, 0xa7, 0xb0, 0xef, 0xa7, 0x86, 0xef, 0xa5, 0x91, 0xef, 0xa8, 0x89, 0xef, 0xa5, 0x99, 0xef, 0xa7, 0x93, 0xef, 0xab, 0x86, 0xef, 0xa7, 0x9c, 0xef, 0xa7, 0xb1, 0xef, 0xa8, 0xaf, 0xef, 0xa6, 0xb8, 0xf0, 0xaf, 0xa7, 0xb3, 0xef, 0xa7, 0xaa, 0xef, 0xa9, 0xa8, 0xef, 0xab, 0x87, 0xef, 0xa6, 0xb2, 0xef, 0xa5, 0x89, 0xf0, 0xaf, 0xa7, 0xb5, 0xef, 0xa4, 0xb8, 0xef, 0xa6, 0xb3, 0xef, 0xa8, 0x9c, 0xa], [0xe9, 0x84, 0x9b, 0xef, 0xb8, 0x80, 0xe9, 0x85, 0xaa, 0xef, 0xb8, 0x80, 0xe9, 0x86, 0x99, 0xef, 0xb8, 0x80, 0xe9, 0x86, 0xb4, 0xef, 0xb8, 0x80, 0xe9, 0x87, 0x8c, 0xef, 0xb8, 0x80, 0xe9, 0x87, 0x8f, 0xef, 0xb8, 0x80, 0xe9, 0x87, 0x91, 0xef, 0xb8, 0x80, 0xe9, 0x88, 0xb4, 0xef, 0xb8, 0x80, 0xe9, 0x88, 0xb8, 0xef, 0xb8, 0x80, 0xe9, 0x89, 0xb6, 0xef, 0xb8, 0x80, 0xe9, 0x89, 0xbc, 0xef, 0xb8, 0x80, 0xe9, 0x8b, 0x97, 0xef, 0xb8, 0x80, 0xe9, 0x8b, 0x98, 0xef, 0xb8, 0x80, 0xe9, 0x8c, 0x84, 0xef, 0xb8, 0x80, 0xe9, 0x8d, 0x8a, 0xef, 0xb8, 0x80, 0xe9, 0x8f, 0xb9, 0xef, 0xb8, 0x80, 0xe9, 0x90, 0x95, 0xef, 0xb8, 0x80, 0xe9, 0x96, 0x8b, 0xef, 0xb8, 0x80, 0xe9, 0x96, 0xad, 0xef, 0xb8, 0x80, 0xe9, 0x96, 0xb7, 0xef, 0xb8, 0x80, 0xe9, 0x98, 0xae, 0xef, 0xb8, 0x80, 0xe9, 0x99, 0x8b, 0xef, 0xb8, 0x80, 0xe9, 0x99, 0x8d, 0xef, 0xb8, 0x80, 0xe9, 0x99, 0xb5, 0xef, 0xb8, 0x80, 0xe9, 0x99, 0xb8, 0xef, 0xb8, 0x80, 0xe9, 0x99, 0xbc, 0xef, 0xb8, 0x80, 0xe9, 0x9a, 0x86, 0xef, 0xb8, 0x80, 0xe9, 0x9a, 0xa3, 0xef, 0xb8, 0x80, 0xe9, 0x9a, 0xb7, 0xef, 0xb8, 0x80, 0xe9, 0x9a, 0xb8, 0xef, 0xb8, 0x80, 0xe9, 0x9b, 0x83, 0xef, 0xb8, 0x80, 0xe9, 0x9b, 0xa2, 0xef, 0xb8, 0x80, 0xe9, 0x9b, 0xa3, 0xef, 0xb8, 0x80, 0xe9, 0x9b, 0xa3, 0xef, 0xb8, 0x81, 0xe9, 0x9b, 0xb6, 0xef, 0xb8, 0x80, 0xe9, 0x9b, 0xb7, 0xef, 0xb8, 0x80, 0xe9, 0x9c, 0xa3, 0xef, 0xb8, 0x80, 0xe9, 0x9c, 0xb2, 0xef, 0xb8, 0x80, 0xe9, 0x9d, 0x88, 0xef, 0xb8, 0x80, 0xe9, 0x9d, 0x96, 0xef, 0xb8, 0x80, 0xa]),
  ([0xef, 0xab, 0x88, 0xef, 0xab, 0x89, 0xf0, 0xaf, 0xa7, 0xba, 0xef, 0xa9, 0xa9, 0xef, 0xab, 0x8a, 0xef, 0xab, 0x8b, 0xf0, 0xaf, 0xa7, 0xbe, 0xf0, 0xaf, 0xa7, 0xbf, 0xef, 0xa6, 0xb4, 0xf0, 0xaf, 0xa8, 0x80, 0xef, 0xa9, 0xaa, 0xef, 0xab, 0x8c, 0xef, 0xa7, 0x90, 0xf0, 0xaf, 0xa8, 0x82, 0xef, 0xa8, 0xaa, 0xef, 0xa8, 0xab, 0xef, 0xa8, 0xac, 0xf0, 0xaf, 0xa8, 0x84, 0xf0, 0xaf, 0xa8, 0x85, 0xf0, 0xaf, 0xa8, 0x86, 0xef, 0xa4, 0x9a, 0xf0, 0xaf, 0xa8, 0x87, 0xef, 0xa6, 0x87, 0xef, 0xab, 0x8d, 0xf0, 0xaf, 0xa8, 0x8a, 0xef, 0xa4, 0xb9, 0xf0, 0xaf, 0xa8, 0x8b, 0xef, 0xa7, 0xb2, 0xf0, 0xaf, 0xa8, 0x8c, 0xf0, 0xaf, 0xa8, 0x8f, 0xef, 0xa8, 0xad, 0xef, 0xa4, 0xba, 0xef, 0xa4, 0xa0, 0xef, 0xa5, 0x80, 0xef, 0xa6, 0x88, 0xef, 0xa7, 0xb3, 0xf0, 0xaf, 0xa8, 0x95, 0xef, 0xa6, 0x89, 0xf0, 0xaf, 0xa8, 0x97, 0xf0, 0xaf, 0xa8, 0x98, 0xa], [0xe9, 0x9d, 0x96, 0xef, 0xb8, 0x81, 0xe9, 0x9f, 0x9b, 0xef, 0xb8, 0x80, 0xe9, 0x9f, 0xa0, 0xef, 0xb8, 0x80, 0xe9, 0x9f, 0xbf, 0xef, 0xb8, 0x80, 0xe9, 0x9f, 0xbf, 0xef, 0xb8, 0x81, 0xe9, 0xa0, 0x8b, 0xef, 0xb8, 0x80, 0xe9, 0xa0, 0x8b, 0xef, 0xb8, 0x81, 0xe9, 0xa0, 0x8b, 0xef, 0xb8, 0x82, 0xe9, 0xa0, 0x98, 0xef, 0xb8, 0x80, 0xe9, 0xa0, 0xa9, 0xef, 0xb8, 0x80, 0xe9, 0xa0, 0xbb, 0xef, 0xb8, 0x80, 0xe9, 0xa0, 0xbb, 0xef, 0xb8, 0x81, 0xe9, 0xa1, 0x9e, 0xef, 0xb8, 0x80, 0xe9, 0xa3, 0xa2, 0xef, 0xb8, 0x80, 0xe9, 0xa3, 0xaf, 0xef, 0xb8, 0x80, 0xe9, 0xa3, 0xbc, 0xef, 0xb8, 0x80, 0xe9, 0xa4, 0xa8, 0xef, 0xb8, 0x80, 0xe9, 0xa4, 0xa9, 0xef, 0xb8, 0x80, 0xe9, 0xa6, 0xa7, 0xef, 0xb8, 0x80, 0xe9, 0xa7, 0x82, 0xef, 0xb8, 0x80, 0xe9, 0xa7, 0xb1, 0xef, 0xb8, 0x80, 0xe9, 0xa7, 0xbe, 0xef, 0xb8, 0x80, 0xe9, 0xa9, 0xaa, 0xef, 0xb8, 0x80, 0xe9, 0xac, 0x92, 0xef, 0xb8, 0x80, 0xe9, 0xac, 0x92, 0xef, 0xb8, 0x81, 0xe9, 0xad, 0xaf, 0xef, 0xb8, 0x80, 0xe9, 0xb1, 0x80, 0xef, 0xb8, 0x80, 0xe9, 0xb1, 0x97, 0xef, 0xb8, 0x80, 0xe9, 0xb3, 0xbd, 0xef, 0xb8, 0x80, 0xe9, 0xb5, 0xa7, 0xef, 0xb8, 0x80, 0xe9, 0xb6, 0xb4, 0xef, 0xb8, 0x80, 0xe9, 0xb7, 0xba, 0xef, 0xb8, 0x80, 0xe9, 0xb8, 0x9e, 0xef, 0xb8, 0x80, 0xe9, 0xb9, 0xbf, 0xef, 0xb8, 0x80, 0xe9, 0xba, 0x97, 0xef, 0xb8, 0x80, 0xe9, 0xba, 0x9f, 0xef, 0xb8, 0x80, 0xe9, 0xba, 0xbb, 0xef, 0xb8, 0x80, 0xe9, 0xbb, 0x8e, 0xef, 0xb8, 0x80, 0xe9, 0xbb, 0xb9, 0xef, 0xb8, 0x80, 0xe9, 0xbb, 0xbe, 0xef, 0xb8, 0x80, 0xa]),
  ([0xf0, 0xaf, 0xa8, 0x99, 0xf0, 0xaf, 0xa8, 0x9a, 0xf0, 0xaf, 0xa8, 0x9b, 0xf0, 0xaf, 0xa8, 0x9c, 0xef, 0xab, 0x98, 0xef, 0xa7, 0x84, 0xef, 0xab, 0x99, 0xef, 0xa4, 0x87, 0xef, 0xa4, 0x88, 0xef, 0xab, 0x8e, 0xf0, 0xaf, 0xa0, 0x83, 0xf0, 0xaf, 0xa0, 0x92, 0xf0, 0xaf, 0xa4, 0x9b, 0xf0, 0xaf, 0xa0, 0x96, 0xf0, 0xaf, 0xa0, 0x8d, 0xf0, 0xaf, 0xa7, 0x99, 0xf0, 0xaf, 0xa7, 0x9d, 0xf0, 0xaf, 0xa0, 0xb4, 0xf0, 0xaf, 0xa0, 0xb8, 0xf0, 0xaf, 0xa1, 0x99, 0xf0, 0xaf, 0xa1, 0xa0, 0xf0, 0xaf, 0xa1, 0xa1, 0xf0, 0xaf, 0xa1, 0xac, 0xf0, 0xaf, 0xa1, 0xb1, 0xf0, 0xaf, 0xa3, 0xb8, 0xf0, 0xaf, 0xa1, 0xbb, 0xf0, 0xaf, 0xa1, 0xbd, 0xf0, 0xaf, 0xa2, 0x89, 0xf0, 0xaf, 0xa4, 0xb9, 0xf0, 0xaf, 0xa2, 0x91, 0xf0, 0xaf, 0xa2, 0x92, 0xf0, 0xaf, 0xa2, 0xa4, 0xef, 0xab, 0x90, 0xef, 0xab, 0x8f, 0xf0, 0xaf, 0xa2, 0xb8, 0xf0, 0xaf, 0xa2, 0xbe, 0xf0, 0xaf, 0xa3, 0x8a, 0xf0, 0xaf, 0xa2, 0x97, 0xf0, 0xaf, 0xa6, 0x80, 0xf0, 0xaf, 0xa6, 0x89, 0xa], [0xe9, 0xbc, 0x85, 0xef, 0xb8, 0x80, 0xe9, 0xbc, 0x8f, 0xef, 0xb8, 0x80, 0xe9, 0xbc, 0x96, 0xef, 0xb8, 0x80, 0xe9, 0xbc, 0xbb, 0xef, 0xb8, 0x80, 0xe9, 0xbd, 0x83, 0xef, 0xb8, 0x80, 0xe9, 0xbe, 0x8d, 0xef, 0xb8, 0x80, 0xe9, 0xbe, 0x8e, 0xef, 0xb8, 0x80, 0xe9, 0xbe, 0x9c, 0xef, 0xb8, 0x80, 0xe9, 0xbe, 0x9c, 0xef, 0xb8, 0x81, 0xe9, 0xbe, 0x9c, 0xef, 0xb8, 0x82, 0xf0, 0xa0, 0x84, 0xa2, 0xef, 0xb8, 0x80, 0xf0, 0xa0, 0x94, 0x9c, 0xef, 0xb8, 0x80, 0xf0, 0xa0, 0x94, 0xa5, 0xef, 0xb8, 0x80, 0xf0, 0xa0, 0x95, 0x8b, 0xef, 0xb8, 0x80, 0xf0, 0xa0, 0x98, 0xba, 0xef, 0xb8, 0x80, 0xf0, 0xa0, 0xa0, 0x84, 0xef, 0xb8, 0x80, 0xf0, 0xa0, 0xa3, 0x9e, 0xef, 0xb8, 0x80, 0xf0, 0xa0, 0xa8, 0xac, 0xef, 0xb8, 0x80, 0xf0, 0xa0, 0xad, 0xa3, 0xef, 0xb8, 0x80, 0xf0, 0xa1, 0x93, 0xa4, 0xef, 0xb8, 0x80, 0xf0, 0xa1, 0x9a, 0xa8, 0xef, 0xb8, 0x80, 0xf0, 0xa1, 0x9b, 0xaa, 0xef, 0xb8, 0x80, 0xf0, 0xa1, 0xa7, 0x88, 0xef, 0xb8, 0x80, 0xf0, 0xa1, 0xac, 0x98, 0xef, 0xb8, 0x80, 0xf0, 0xa1, 0xb4, 0x8b, 0xef, 0xb8, 0x80, 0xf0, 0xa1, 0xb7, 0xa4, 0xef, 0xb8, 0x80, 0xf0, 0xa1, 0xb7, 0xa6, 0xef, 0xb8, 0x80, 0xf0, 0xa2, 0x86, 0x83, 0xef, 0xb8, 0x80, 0xf0, 0xa2, 0x86, 0x9f, 0xef, 0xb8, 0x80, 0xf0, 0xa2, 0x8c, 0xb1, 0xef, 0xb8, 0x80, 0xf0, 0xa2, 0x8c, 0xb1, 0xef, 0xb8, 0x81, 0xf0, 0xa2, 0x9b, 0x94, 0xef, 0xb8, 0x80, 0xf0, 0xa2, 0xa1, 0x84, 0xef, 0xb8, 0x80, 0xf0, 0xa2, 0xa1, 0x8a, 0xef, 0xb8, 0x80, 0xf0, 0xa2, 0xac, 0x8c, 0xef, 0xb8, 0x80, 0xf0, 0xa2, 0xaf, 0xb1, 0xef, 0xb8, 0x80, 0xf0, 0xa3, 0x80, 0x8a, 0xef, 0xb8, 0x80, 0xf0, 0xa3, 0x8a, 0xb8, 0xef, 0xb8, 0x80, 0xf0, 0xa3, 0x8d, 0x9f, 0xef, 0xb8, 0x80, 0xf0, 0xa3, 0x8e, 0x93, 0xef, 0xb8, 0x80, 0xa]),
  ([0xf0, 0xaf, 0xa6, 0x8a, 0xf0, 0xaf, 0xa3, 0x9d, 0xef, 0xab, 0x91, 0xf0, 0xaf, 0xa3, 0xa3, 0xf0, 0xaf, 0xa3, 0xac, 0xf0, 0xaf, 0xa3, 0xb0, 0xf0, 0xaf, 0xa3, 0xb7, 0xf0, 0xaf, 0xa3, 0xb9, 0xf0, 0xaf, 0xa3, 0xbb, 0xf0, 0xaf, 0xa4, 0x86, 0xf0, 0xaf, 0xa4, 0x8d, 0xf0, 0xaf, 0xa4, 0x90, 0xf0, 0xaf, 0xa4, 0x91, 0xf0, 0xaf, 0xa4, 0x9d, 0xef, 0xa9, 0xac, 0xf0, 0xaf, 0xa4, 0x9f, 0xf0, 0xaf, 0xa4, 0xa3, 0xf0, 0xaf, 0xa4, 0xa6, 0xf0, 0xaf, 0xa4, 0xa7, 0xf0, 0xaf, 0xa4, 0xb5, 0xf0, 0xaf, 0xa4, 0xb7, 0xf0, 0xaf, 0xa4, 0xbb, 0xf0, 0xaf, 0xa4, 0xbc, 0xf0, 0xaf, 0xa4, 0xbd, 0xf0, 0xaf, 0xa5, 0x82, 0xf0, 0xaf, 0xa5, 0x81, 0xf0, 0xaf, 0xa5, 0x83, 0xf0, 0xaf, 0xa5, 0x84, 0xef, 0xab, 0x95, 0xf0, 0xaf, 0xa5, 0x8d, 0xf0, 0xaf, 0xa5, 0x92, 0xf0, 0xaf, 0xa5, 0x94, 0xf0, 0xaf, 0xa5, 0x95, 0xf0, 0xaf, 0xa5, 0x9c, 0xf0, 0xaf, 0xa5, 0x9d, 0xf0, 0xaf, 0xa5, 0x9e, 0xf0, 0xaf, 0xa5, 0xa1, 0xf0, 0xaf, 0xa5, 0xa5, 0xef, 0xab, 0x96, 0xf0, 0xaf, 0xa5, 0xab, 0xa], [0xf0, 0xa3, 0x8e, 0x9c, 0xef, 0xb8, 0x80, 0xf0, 0xa3, 0x8f, 0x83, 0xef, 0xb8, 0x80, 0xf0, 0xa3, 0x8f, 0x95, 0xef, 0xb8, 0x80, 0xf0, 0xa3, 0x91, 0xad, 0xef, 0xb8, 0x80, 0xf0, 0xa3, 0x9a, 0xa3, 0xef, 0xb8, 0x80, 0xf0, 0xa3, 0xa2, 0xa7, 0xef, 0xb8, 0x80, 0xf0, 0xa3, 0xaa, 0x8d, 0xef, 0xb8, 0x80, 0xf0, 0xa3, 0xab, 0xba, 0xef, 0xb8, 0x80, 0xf0, 0xa3, 0xb2, 0xbc, 0xef, 0xb8, 0x80, 0xf0, 0xa3, 0xb4, 0x9e, 0xef, 0xb8, 0x80, 0xf0, 0xa3, 0xbb, 0x91, 0xef, 0xb8, 0x80, 0xf0, 0xa3, 0xbd, 0x9e, 0xef, 0xb8, 0x80, 0xf0, 0xa3, 0xbe, 0x8e, 0xef, 0xb8, 0x80, 0xf0, 0xa4, 0x89, 0xa3, 0xef, 0xb8, 0x80, 0xf0, 0xa4, 0x8b, 0xae, 0xef, 0xb8, 0x80, 0xf0, 0xa4, 0x8e, 0xab, 0xef, 0xb8, 0x80, 0xf0, 0xa4, 0x98, 0x88, 0xef, 0xb8, 0x80, 0xf0, 0xa4, 0x9c, 0xb5, 0xef, 0xb8, 0x80, 0xf0, 0xa4, 0xa0, 0x94, 0xef, 0xb8, 0x80, 0xf0, 0xa4, 0xb0, 0xb6, 0xef, 0xb8, 0x80, 0xf0, 0xa4, 0xb2, 0x92, 0xef, 0xb8, 0x80, 0xf0, 0xa4, 0xbe, 0xa1, 0xef, 0xb8, 0x80, 0xf0, 0xa4, 0xbe, 0xb8, 0xef, 0xb8, 0x80, 0xf0, 0xa5, 0x81, 0x84, 0xef, 0xb8, 0x80, 0xf0, 0xa5, 0x83, 0xb2, 0xef, 0xb8, 0x80, 0xf0, 0xa5, 0x83, 0xb3, 0xef, 0xb8, 0x80, 0xf0, 0xa5, 0x84, 0x99, 0xef, 0xb8, 0x80, 0xf0, 0xa5, 0x84, 0xb3, 0xef, 0xb8, 0x80, 0xf0, 0xa5, 0x89, 0x89, 0xef, 0xb8, 0x80, 0xf0, 0xa5, 0x90, 0x9d, 0xef, 0xb8, 0x80, 0xf0, 0xa5, 0x98, 0xa6, 0xef, 0xb8, 0x80, 0xf0, 0xa5, 0x9a, 0x9a, 0xef, 0xb8, 0x80, 0xf0, 0xa5, 0x9b, 0x85, 0xef, 0xb8, 0x80, 0xf0, 0xa5, 0xa5, 0xbc, 0xef, 0xb8, 0x80, 0xf0, 0xa5, 0xaa, 0xa7, 0xef, 0xb8, 0x80, 0xf0, 0xa5, 0xaa, 0xa7, 0xef, 0xb8, 0x81, 0xf0, 0xa5, 0xae, 0xab, 0xef, 0xb8, 0x80, 0xf0, 0xa5, 0xb2, 0x80, 0xef, 0xb8, 0x80, 0xf0, 0xa5, 0xb3, 0x90, 0xef, 0xb8, 0x80, 0xf0, 0xa5, 0xbe, 0x86, 0xef, 0xb8, 0x80, 0xa]),
  ([0xf0, 0xaf, 0xa2, 0x98, 0xf0, 0xaf, 0xa5, 0xb2, 0xf0, 0xaf, 0xa5, 0xb3, 0xf0, 0xaf, 0xa5, 0xb5, 0xf0, 0xaf, 0xa5, 0xb7, 0xf0, 0xaf, 0xa5, 0xbb, 0xf0, 0xaf, 0xa5, 0xbc, 0xf0, 0xaf, 0xa5, 0xbe, 0xf0, 0xaf, 0xa6, 0x87, 0xf0, 0xaf, 0xa6, 0x88, 0xf0, 0xaf, 0xa6, 0x97, 0xf0, 0xaf, 0xa6, 0xa4, 0xf0, 0xaf, 0xa6, 0xa6, 0xf0, 0xaf, 0xa6, 0xa5, 0xf0, 0xaf, 0xa6, 0xad, 0xf0, 0xaf, 0xa6, 0xb0, 0xf0, 0xaf, 0xa6, 0xb1, 0xf0, 0xaf, 0xa6, 0xab, 0xf0, 0xaf, 0xa7, 0x85, 0xf0, 0xaf, 0xa7, 0x8b, 0xf0, 0xaf, 0xa7, 0x8c, 0xf0, 0xaf, 0xa7, 0x93, 0xef, 0xab, 0x97, 0xf0, 0xaf, 0xa7, 0x98, 0xf0, 0xaf, 0xa7, 0xa0, 0xf0, 0xaf, 0xa7, 0xa1, 0xf0, 0xaf, 0xa7, 0xa5, 0xf0, 0xaf, 0xa7, 0xad, 0xf0, 0xaf, 0xa7, 0xb1, 0xf0, 0xaf, 0xa7, 0xb6, 0xf0, 0xaf, 0xa0, 0x9c, 0xf0, 0xaf, 0xa7, 0xb7, 0xf0, 0xaf, 0xa7, 0xbb, 0xf0, 0xaf, 0xa7, 0xbd, 0xf0, 0xaf, 0xa8, 0x81, 0xf0, 0xaf, 0xa8, 0x89, 0xf0, 0xaf, 0xa8, 0x90, 0xf0, 0xaf, 0xa8, 0x92, 0xf0, 0xaf, 0xa8, 0x93, 0xf0, 0xaf, 0xa8, 0x94, 0xa], [0xf0, 0xa6, 0x87, 0x9a, 0xef, 0xb8, 0x80, 0xf0, 0xa6, 0x88, 0xa8, 0xef, 0xb8, 0x80, 0xf0, 0xa6, 0x89, 0x87, 0xef, 0xb8, 0x80, 0xf0, 0xa6, 0x8b, 0x99, 0xef, 0xb8, 0x80, 0xf0, 0xa6, 0x8c, 0xbe, 0xef, 0xb8, 0x80, 0xf0, 0xa6, 0x93, 0x9a, 0xef, 0xb8, 0x80, 0xf0, 0xa6, 0x94, 0xa3, 0xef, 0xb8, 0x80, 0xf0, 0xa6, 0x96, 0xa8, 0xef, 0xb8, 0x80, 0xf0, 0xa6, 0x9e, 0xa7, 0xef, 0xb8, 0x80, 0xf0, 0xa6, 0x9e, 0xb5, 0xef, 0xb8, 0x80, 0xf0, 0xa6, 0xac, 0xbc, 0xef, 0xb8, 0x80, 0xf0, 0xa6, 0xb0, 0xb6, 0xef, 0xb8, 0x80, 0xf0, 0xa6, 0xb3, 0x95, 0xef, 0xb8, 0x80, 0xf0, 0xa6, 0xb5, 0xab, 0xef, 0xb8, 0x80, 0xf0, 0xa6, 0xbc, 0xac, 0xef, 0xb8, 0x80, 0xf0, 0xa6, 0xbe, 0xb1, 0xef, 0xb8, 0x80, 0xf0, 0xa7, 0x83, 0x92, 0xef, 0xb8, 0x80, 0xf0, 0xa7, 0x8f, 0x8a, 0xef, 0xb8, 0x80, 0xf0, 0xa7, 0x99, 0xa7, 0xef, 0xb8, 0x80, 0xf0, 0xa7, 0xa2, 0xae, 0xef, 0xb8, 0x80, 0xf0, 0xa7, 0xa5, 0xa6, 0xef, 0xb8, 0x80, 0xf0, 0xa7, 0xb2, 0xa8, 0xef, 0xb8, 0x80, 0xf0, 0xa7, 0xbb, 0x93, 0xef, 0xb8, 0x80, 0xf0, 0xa7, 0xbc, 0xaf, 0xef, 0xb8, 0x80, 0xf0, 0xa8, 0x97, 0x92, 0xef, 0xb8, 0x80, 0xf0, 0xa8, 0x97, 0xad, 0xef, 0xb8, 0x80, 0xf0, 0xa8, 0x9c, 0xae, 0xef, 0xb8, 0x80, 0xf0, 0xa8, 0xaf, 0xba, 0xef, 0xb8, 0x80, 0xf0, 0xa8, 0xb5, 0xb7, 0xef, 0xb8, 0x80, 0xf0, 0xa9, 0x85, 0x85, 0xef, 0xb8, 0x80, 0xf0, 0xa9, 0x87, 0x9f, 0xef, 0xb8, 0x80, 0xf0, 0xa9, 0x88, 0x9a, 0xef, 0xb8, 0x80, 0xf0, 0xa9, 0x90, 0x8a, 0xef, 0xb8, 0x80, 0xf0, 0xa9, 0x92, 0x96, 0xef, 0xb8, 0x80, 0xf0, 0xa9, 0x96, 0xb6, 0xef, 0xb8, 0x80, 0xf0, 0xa9, 0xac, 0xb0, 0xef, 0xb8, 0x80, 0xf0, 0xaa, 0x83, 0x8e, 0xef, 0xb8, 0x80, 0xf0, 0xaa, 0x84, 0x85, 0xef, 0xb8, 0x80, 0xf0, 0xaa, 0x88, 0x8e, 0xef, 0xb8, 0x80, 0xf0, 0xaa, 0x8a, 0x91, 0xef, 0xb8, 0x80, 0xa]),
  ([0xf0, 0xaf, 0xa2, 0x8f, 0xf0, 0xaf, 0xa8, 0x9d, 0xa], [0xf0, 0xaa, 0x8e, 0x92, 0xef, 0xb8, 0x80, 0xf0, 0xaa, 0x98, 0x80, 0xef, 0xb8, 0x80, 0xa]),
  ([0xa], [0xa]),
  ([0x46, 0x6f, 0x72, 0x20, 0x74, 0x68, 0x65, 0x20, 0x72, 0x65, 0x73, 0x74, 0x2c, 0x20, 0x4e, 0x46, 0x43, 0x20, 0x6e, 0x6f, 0x72, 0x6d, 0x61, 0x6c, 0x69, 0x7a, 0x61, 0x74, 0x69, 0x6f, 0x6e, 0x20, 0x69, 0x73, 0x20, 0x61, 0x70, 0x70, 0x6c, 0x69, 0x65, 0x64, 0x3a, 0xa], [0x46, 0x6f, 0x72, 0x20, 0x74, 0x68, 0x65, 0x20, 0x72, 0x65, 0x73, 0x74, 0x2c, 0x20, 0x4e, 0x46, 0x43, 0x20, 0x6e, 0x6f, 0x72, 0x6d, 0x61, 0x6c, 0x69, 0x7a, 0x61, 0x74, 0x69, 0x6f, 0x6e, 0x20, 0x69, 0x73, 0x20, 0x61, 0x70, 0x70, 0x6c, 0x69, 0x65, 0x64, 0x3a, 0xa])]

def sampleInvalid3 : List (List Nat × List Nat) := [
  ([0x20, 0x2d, 0x20, 0x41, 0xcc, 0x8a, 0xa], [0x20, 0x2d, 0x20, 0xc3, 0x85, 0xa]),
  ([0x20, 0x2d, 0x20, 0x41, 0xcc, 0x8a, 0xcc, 0x88, 0xcc, 0x87, 0xa], [0x20, 0x2d, 0x20, 0xc3, 0x85, 0xcc, 0x88, 0xcc, 0x87, 0xa]),
  ([0x20, 0x2d, 0x20, 0xce, 0x87, 0xa], [0x20, 0x2d, 0x20, 0xc2, 0xb7, 0xa]), ([0xa], [0xa]),
  ([0x5a, 0xcc, 0x9b, 0xcc, 0x96, 0xcc, 0x97, 0xcc, 0x98, 0xcc, 0x99, 0xcc, 0x9c, 0xcc, 0x9d, 0xcc, 0x80, 0xcc, 0x81, 0xcc, 0x82, 0xcc, 0x83, 0xcc, 0x84, 0xcc, 0x85, 0xcc, 0x86, 0xcc, 0x87, 0xcc, 0x89, 0xcc, 0x88, 0xcc, 0x8a, 0xcc, 0x8b, 0xcc, 0x8c, 0xcc, 0x8d, 0xcc, 0x8e, 0xcc, 0x8f, 0xcc, 0x90, 0xcc, 0x91, 0xcc, 0x92, 0xcc, 0x93, 0xcc, 0x94, 0xcc, 0x95, 0xcc, 0x9a, 0xcc, 0x9e, 0x61, 0xcc, 0xb4, 0xcc, 0xb5, 0xcc, 0xb6, 0xcc, 0xb7, 0xcc, 0xb8, 0xcc, 0xa1, 0xcc, 0xa2, 0xcc, 0xa7, 0xcc, 0xa8, 0xcc, 0x9f, 0xcc, 0xa0, 0xcc, 0xa3, 0xcc, 0xa4, 0xcc, 0xa5, 0xcc, 0xa6, 0xcc, 0xa9, 0xcc, 0xaa, 0xcc, 0xab, 0xcc, 0xac, 0xcc, 0xad, 0xcc, 0xae, 0xcc, 0xaf, 0xcc, 0xb0, 0xcc, 0xb1, 0xcc, 0xb2, 0xcc, 0xb3, 0xcc, 0xb9, 0xcc, 0xba, 0xcc, 0xbb, 0xcc, 0xbc, 0xcc, 0xbd, 0x6c, 0xcd, 0x87, 0xcd, 0x88, 0xcd, 0x89, 0xcd, 0x8d, 0xcd, 0x8e, 0xcd, 0x93, 0xcd, 0x94, 0xcd, 0x95, 0xcd, 0x96, 0xcd, 0x99, 0xcd, 0x9a, 0xcc, 0xbe, 0xcc, 0xbf, 0xcd, 0x82, 0xcd, 0x86, 0xcd, 0x8a, 0xcd, 0x8b, 0xcd, 0x8c, 0xcd, 0x90, 0xcd, 0x91, 0xcd, 0x92, 0xcd, 0x97, 0xcd, 0x9b, 0xcd, 0x98, 0xcd, 0x9c, 0xcd, 0x9f, 0xcd, 0x9d, 0xcd, 0x9e, 0xcd, 0xa0, 0xcd, 0x85, 0xcd, 0xa1, 0x67, 0xf0, 0x9e, 0x80, 0x80, 0xf0, 0x9e, 0x80, 0x81, 0xf0, 0x9e, 0x80, 0x82, 0xf0, 0x9e, 0x80, 0x84, 0xf0, 0x9e, 0x80, 0x83, 0xf0, 0x9e, 0x80, 0x85, 0xf0, 0x9e, 0x80, 0x86, 0xf0, 0x9e, 0x80, 0x88, 0xf0, 0x9e, 0x80, 0x89, 0xf0, 0x9e, 0x80, 0x8a, 0xf0, 0x9e, 0x80, 0x8b, 0xf0, 0x9e, 0x80, 0x8c, 0xf0, 0x9e, 0x80, 0x8d, 0xf0, 0x9e, 0x80, 0x8e, 0xf0, 0x9e, 0x80, 0x8f, 0xf0, 0x9e, 0x80, 0x90, 0xf0, 0x9e, 0x80, 0x91, 0xf0, 0x9e, 0x80, 0x92, 0xf0, 0x9e, 0x80, 0x93, 0xf0, 0x9e, 0x80, 0x94, 0xf0, 0x9e, 0x80, 0x95, 0xf0, 0x9e, 0x80, 0x96, 0xf0, 0x9e, 0x80, 0x97, 0xf0, 0x9e, 0x80, 0x98, 0xf0, 0x9e, 0x80, 0x9b, 0xf0, 0x9e, 0x80, 0x9c, 0xf0, 0x9e, 0x80, 0x9d, 0xf0, 0x9e, 0x80, 0x9e, 0xf0, 0x9e, 0x80, 0x9f, 0xf0, 0x9e, 0x80, 0xa0, 0xf0, 0x9e, 0x80, 0xa1, 0x6f, 0xe0, 0xa3, 0x94, 0xe0, 0xa3, 0x95, 0xe0, 0xa3, 0x96, 0xe0, 0xa3, 0x97, 0xe0, 0xa3, 0x98, 0xe0, 0xa3, 0x99, 0xe0, 0xa3, 0x9a, 0xe0, 0xa3, 0x9b, 0xe0, 0xa3, 0x9c, 0xe0, 0xa3, 0x9d, 0xe0, 0xa3, 0x9e, 0xe0, 0xa3, 0x9f, 0xe0, 0xa3, 0xa0, 0xe0, 0xa3, 0xa1, 0xe0, 0xa3, 0xa4, 0xe0, 0xa3, 0xa5, 0xe0, 0xa3, 0xa7, 0xe0, 0xa3, 0xa8, 0xe0, 0xa3, 0xaa, 0xe0, 0xa3, 0xab, 0xe0, 0xa3, 0xac, 0xe0, 0xa3, 0xb3, 0xe0, 0xa3, 0xb4, 0xe0, 0xa3, 0xb5, 0xe0, 0xa3, 0xb7, 0xe0, 0xa3, 0xb8, 0xe0, 0xa3, 0xbb, 0xe0, 0xa3, 0xbc, 0xe0, 0xa3, 0xbd, 0xe0, 0xa3, 0xbe, 0xe0, 0xa3, 0xbf, 0x20, 0x62, 0x65, 0x79, 0x6f, 0x6e, 0x64, 0x20, 0x53, 0x74, 0x72, 0x65, 0x61, 0x6d, 0x2d, 0x53, 0x61, 0x66, 0x65, 0x20, 0x6c, 0x69, 0x6d, 0x69, 0x74, 0x73, 0x20, 0x69, 0x73, 0x20, 0x62, 0x72, 0x6f, 0x6b, 0x65, 0x6e, 0x20, 0x75, 0x70, 0x20, 0x77, 0x69, 0x74, 0x68, 0x20, 0x43, 0x47, 0x4a, 0x2e, 0xa], [0x5a, 0xcc, 0x9b, 0xcc, 0x96, 0xcc, 0x97, 0xcc, 0x98, 0xcc, 0x99, 0xcc, 0x9c, 0xcc, 0x9d, 0xcc, 0x80, 0xcc, 0x81, 0xcc, 0x82, 0xcc, 0x83, 0xcc, 0x84, 0xcc, 0x85, 0xcc, 0x86, 0xcc, 0x87, 0xcc, 0x89, 0xcc, 0x88, 0xcc, 0x8a, 0xcc, 0x8b, 0xcc, 0x8c, 0xcc, 0x8d, 0xcc, 0x8e, 0xcc, 0x8f, 0xcc, 0x90, 0xcc, 0x91, 0xcc, 0x92, 0xcc, 0x93, 0xcc, 0x94, 0xcc, 0x95, 0xcc, 0x9a, 0xcd, 0x8f, 0xcc, 0x9e, 0x61, 0xcc, 0xb4, 0xcc, 0xb5, 0xcc, 0xb6, 0xcc, 0xb7, 0xcc, 0xb8, 0xcc, 0xa1, 0xcc, 0xa2, 0xcc, 0xa7, 0xcc, 0xa8, 0xcc, 0x9f, 0xcc, 0xa0, 0xcc, 0xa3, 0xcc, 0xa4, 0xcc, 0xa5, 0xcc, 0xa6, 0xcc, 0xa9, 0xcc, 0xaa, 0xcc, 0xab, 0xcc, 0xac, 0xcc, 0xad, 0xcc, 0xae, 0xcc, 0xaf, 0xcc, 0xb0, 0xcc, 0xb1, 0xcc, 0xb2, 0xcc, 0xb3, 0xcc, 0xb9, 0xcc, 0xba, 0xcc, 0xbb, 0xcc, 0xbc, 0xcd, 0x8f, 0xcc, 0xbd, 0x6c, 0xcd, 0x87, 0xcd, 0x88, 0xcd, 0x89, 0xcd, 0x8d, 0xcd, 0x8e, 0xcd, 0x93, 0xcd, 0x94, 0xcd, 0x95, 0xcd, 0x96, 0xcd, 0x99, 0xcd, 0x9a, 0xcc, 0xbe, 0xcc, 0xbf, 0xcd, 0x82, 0xcd, 0x86, 0xcd, 0x8a, 0xcd, 0x8b, 0xcd, 0x8c, 0xcd, 0x90, 0xcd, 0x91, 0xcd, 0x92, 0xcd, 0x97, 0xcd, 0x9b, 0xcd, 0x98, 0xcd, 0x9c, 0xcd, 0x9f, 0xcd, 0x9d, 0xcd, 0x9e, 0xcd, 0xa0, 0xcd, 0x85, 0xcd, 0x8f, 0xcd, 0xa1, 0x67, 0xf0, 0x9e, 0x80, 0x80, 0xf0, 0x9e, 0x80, 0x81, 0xf0, 0x9e, 0x80, 0x82, 0xf0, 0x9e, 0x80, 0x84, 0xf0, 0x9e, 0x80, 0x83, 0xf0, 0x9e, 0x80, 0x85, 0xf0, 0x9e, 0x80, 0x86, 0xf0, 0x9e, 0x80, 0x88, 0xf0, 0x9e, 0x80, 0x89, 0xf0, 0x9e, 0x80, 0x8a, 0xf0, 0x9e, 0x80, 0x8b, 0xf0, 0x9e, 0x80, 0x8c, 0xf0, 0x9e, 0x80, 0x8d, 0xf0, 0x9e, 0x80, 0x8e, 0xf0, 0x9e, 0x80, 0x8f, 0xf0, 0x9e, 0x80, 0x90, 0xf0, 0x9e, 0x80, 0x91, 0xf0, 0x9e, 0x80, 0x92, 0xf0, 0x9e, 0x80, 0x93, 0xf0, 0x9e, 0x80, 0x94, 0xf0, 0x9e, 0x80, 0x95, 0xf0, 0x9e, 0x80, 0x96, 0xf0, 0x9e, 0x80, 0x97, 0xf0, 0x9e, 0x80, 0x98, 0xf0, 0x9e, 0x80, 0x9b, 0xf0, 0x9e, 0x80, 0x9c, 0xf0, 0x9e, 0x80, 0x9d, 0xf0, 0x9e, 0x80, 0x9e, 0xf0, 0x9e, 0x80, 0x9f, 0xf0, 0x9e, 0x80, 0xa0, 0xcd, 0x8f, 0xf0, 0x9e, 0x80, 0xa1, 0x6f, 0xe0, 0xa3, 0x94, 0xe0, 0xa3, 0x95, 0xe0, 0xa3, 0x96, 0xe0, 0xa3, 0x97, 0xe0, 0xa3, 0x98, 0xe0, 0xa3, 0x99, 0xe0, 0xa3, 0x9a, 0xe0, 0xa3, 0x9b, 0xe0, 0xa3, 0x9c, 0xe0, 0xa3, 0x9d, 0xe0, 0xa3, 0x9e, 0xe0, 0xa3, 0x9f, 0xe0, 0xa3, 0xa0, 0xe0, 0xa3, 0xa1, 0xe0, 0xa3, 0xa4, 0xe0, 0xa3, 0xa5, 0xe0, 0xa3, 0xa7, 0xe0, 0xa3, 0xa8, 0xe0, 0xa3, 0xaa, 0xe0, 0xa3, 0xab, 0xe0, 0xa3, 0xac, 0xe0, 0xa3, 0xb3, 0xe0, 0xa3, 0xb4, 0xe0, 0xa3, 0xb5, 0xe0, 0xa3, 0xb7, 0xe0, 0xa3, 0xb8, 0xe0, 0xa3, 0xbb, 0xe0, 0xa3, 0xbc, 0xe0, 0xa3, 0xbd, 0xe0, 0xa3, 0xbe, 0xcd, 0x8f, 0xe0, 0xa3, 0xbf, 0x20, 0x62, 0x65, 0x79, 0x6f, 0x6e, 0x64, 0x20, 0x53, 0x74, 0x72, 0x65, 0x61, 0x6d, 0x2d, 0x53, 0x61, 0x66, 0x65, 0x20, 0x6c, 0x69, 0x6d, 0x69, 0x74, 0x73, 0x20, 0x69, 0x73, 0x20, 0x62, 0x72, 0x6f, 0x6b, 0x65, 0x6e, 0x20, 0x75, 0x70, 0x20, 0x77, 0x69, 0x74, 0x68, 0x20, 0x43, 0x47, 0x4a, 0x2e, 0xa]),
  ([0xa], [0xa]),
  ([0x53, 0x74, 0x72, 0x65, 0x61, 0x6d, 0x2d, 0x53, 0x61, 0x66, 0x65, 0x20, 0x69, 0x73, 0x20, 0x61, 0x70, 0x70, 0x6c, 0x69, 0x65, 0x64, 0x20, 0x62, 0x65, 0x66, 0x6f, 0x72, 0x65, 0x20, 0x4e, 0x46, 0x43, 0x3a, 0xa], [0x53, 0x74, 0x72, 0x65, 0x61, 0x6d, 0x2d, 0x53, 0x61, 0x66, 0x65, 0x20, 0x69, 0x73, 0x20, 0x61, 0x70, 0x70, 0x6c, 0x69, 0x65, 0x64, 0x20, 0x62, 0x65, 0x66, 0x6f, 0x72, 0x65, 0x20, 0x4e, 0x46, 0x43, 0x3a, 0xa]),
  ([0x20, 0x2d, 0x20, 0x41, 0xeb, 0xae, 0xa4, 0x24, 0xea, 0xa3, 0xa4, 0x3c, 0xea, 0xa3, 0x84, 0xea, 0xa3, 0x84, 0xea, 0xa3, 0x84, 0xea, 0xa3, 0x84, 0xea, 0xa3, 0x84, 0xea, 0xa3, 0xa4, 0xea, 0xa3, 0xa4, 0xea, 0xa3, 0xa4, 0xea, 0xa3, 0xa4, 0xea, 0xa3, 0xa4, 0xea, 0xa3, 0xa4, 0xea, 0xa3, 0xa4, 0xea, 0xa3, 0xa4, 0xea, 0xa3, 0xa4, 0xea, 0xa3, 0xa4, 0xea, 0xa3, 0xa4, 0xea, 0xa3, 0xa4, 0xea, 0xa3, 0xa4, 0xea, 0xa3, 0xa4, 0xea, 0xa3, 0xa4, 0xea, 0xa3, 0xa4, 0xea, 0xa3, 0x84, 0xea, 0xa3, 0xa4, 0xea, 0xa3, 0xa4, 0xea, 0xa3, 0xa4, 0xea, 0xa3, 0x84, 0xea, 0xa3, 0xa4, 0xea, 0xa3, 0xa4, 0xea, 0xa3, 0xa4, 0xea, 0xa3, 0xa4, 0xea, 0xa3, 0x84, 0xea, 0xa3, 0xa4, 0xea, 0xa3, 0xa4, 0xea, 0xa3, 0xa4, 0xea, 0xa3, 0xa4, 0x5a, 0xa], [0x20, 0x2d, 0x20, 0x41, 0xeb, 0xae, 0xa4, 0x24, 0xea, 0xa3, 0xa4, 0x3c, 0xea, 0xa3, 0x84, 0xea, 0xa3, 0x84, 0xea, 0xa3, 0x84, 0xea, 0xa3, 0x84, 0xea, 0xa3, 0x84, 0xea, 0xa3, 0x84, 0xea, 0xa3, 0x84, 0xea, 0xa3, 0xa4, 0xea, 0xa3, 0xa4, 0xea, 0xa3, 0xa4, 0xea, 0xa3, 0xa4, 0xea, 0xa3, 0xa4, 0xea, 0xa3, 0xa4, 0xea, 0xa3, 0xa4, 0xea, 0xa3, 0xa4, 0xea, 0xa3, 0xa4, 0xea, 0xa3, 0xa4, 0xea, 0xa3, 0xa4, 0xea, 0xa3, 0xa4, 0xea, 0xa3, 0xa4, 0xea, 0xa3, 0xa4, 0xea, 0xa3, 0xa4, 0xea, 0xa3, 0xa4, 0xea, 0xa3, 0xa4, 0xea, 0xa3, 0xa4, 0xea, 0xa3, 0xa4, 0xea, 0xa3, 0xa4, 0xea, 0xa3, 0xa4, 0xea, 0xa3, 0xa4, 0xea, 0xa3, 0xa4, 0xcd, 0x8f, 0xea, 0xa3, 0x84, 0xea, 0xa3, 0xa4, 0xea, 0xa3, 0xa4, 0xea, 0xa3, 0xa4, 0xea, 0xa3, 0xa4, 0x5a, 0xa]),
  ([0xa], [0xa]),
  ([0x4d, 0x6f, 0x73, 0x74, 0x20, 0x63, 0x6f, 0x6e, 0x74, 0x72, 0x6f, 0x6c, 0x20, 0x63, 0x6f, 0x64, 0x65, 0x73, 0x20, 0x61, 0x72, 0x65, 0x20, 0x72, 0x65, 0x70, 0x6c, 0x61, 0x63, 0x65, 0x64, 0x3a, 0xa], [0x4d, 0x6f, 0x73, 0x74, 0x20, 0x63, 0x6f, 0x6e, 0x74, 0x72, 0x6f, 0x6c, 0x20, 0x63, 0x6f, 0x64, 0x65, 0x73, 0x20, 0x61, 0x72, 0x65, 0x20, 0x72, 0x65, 0x70, 0x6c, 0x61, 0x63, 0x65, 0x64, 0x3a, 0xa]),
  ([0x20, 0x2d, 0x20, 0, 1, 2, 3, 4, 5, 6, 7, 8, 0xb, 0xd, 0xe, 0xf, 0x10, 0x11, 0x12, 0x13, 0x14, 0x15, 0x16, 0x17, 0x18, 0x19, 0x1a, 0x1c, 0x1d, 0x1e, 0x1f, 0xa], [0x20, 0x2d, 0x20, 0xef, 0xbf, 0xbd, 0xef, 0xbf, 0xbd, 0xef, 0xbf, 0xbd, 0xef, 0xbf, 0xbd, 0xef, 0xbf, 0xbd, 0xef, 0xbf, 0xbd, 0xef, 0xbf, 0xbd, 0xef, 0xbf, 0xbd, 0xef, 0xbf, 0xbd, 0xef, 0xbf, 0xbd, 0xa, 0xef, 0xbf, 0xbd, 0xef, 0xbf, 0xbd, 0xef, 0xbf, 0xbd, 0xef, 0xbf, 0xbd, 0xef, 0xbf, 0xbd, 0xef, 0xbf, 0xbd, 0xef, 0xbf, 0xbd, 0xef, 0xbf, 0xbd, 0xef, 0xbf, 0xbd, 0xef, 0xbf, 0xbd, 0xef, 0xbf, 0xbd, 0xef, 0xbf, 0xbd, 0xef, 0xbf, 0xbd, 0xef, 0xbf, 0xbd, 0xef, 0xbf, 0xbd, 0xef, 0xbf, 0xbd, 0xef, 0xbf, 0xbd, 0xa]),
  ([0x20, 0x2d, 0x20, 0x7f, 0xa], [0x20, 0x2d, 0x20, 0xef, 0xbf, 0xbd, 0xa]),
  ([0x20, 0x2d, 0x20, 0xc2, 0x80, 0xc2, 0x81, 0xc2, 0x82, 0xc2, 0x83, 0xc2, 0x84, 0xc2, 0x86, 0xc2, 0x87, 0xc2, 0x88, 0xc2, 0x89, 0xc2, 0x8a, 0xc2, 0x8b, 0xc2, 0x8c, 0xc2, 0x8d, 0xc2, 0x8e, 0xc2, 0x8f, 0xa], [0x20, 0x2d, 0x20, 0xef, 0xbf, 0xbd, 0xef, 0xbf, 0xbd, 0xef, 0xbf, 0xbd, 0xef, 0xbf, 0xbd, 0xef, 0xbf, 0xbd, 0xef, 0xbf, 0xbd, 0xef, 0xbf, 0xbd, 0xef, 0xbf, 0xbd, 0xef, 0xbf, 0xbd, 0xef, 0xbf, 0xbd, 0xef, 0xbf, 0xbd, 0xef, 0xbf, 0xbd, 0xef, 0xbf, 0xbd, 0xef, 0xbf, 0xbd, 0xef, 0xbf, 0xbd, 0xa]),
  ([0x20, 0x2d, 0x20, 0xc2, 0x90, 0xc2, 0x91, 0xc2, 0x92, 0xc2, 0x93, 0xc2, 0x94, 0xc2, 0x95, 0xc2, 0x96, 0xc2, 0x97, 0xc2, 0x98, 0xc2, 0x99, 0xc2, 0x9a, 0xc2, 0x9b, 0xc2, 0x9c, 0xc2, 0x9d, 0xc2, 0x9e, 0xc2, 0x9f, 0xa], [0x20, 0x2d, 0x20, 0xef, 0xbf, 0xbd, 0xef, 0xbf, 0xbd, 0xef, 0xbf, 0xbd, 0xef, 0xbf, 0xbd, 0xef, 0xbf, 0xbd, 0xef, 0xbf, 0xbd, 0xef, 0xbf, 0xbd, 0xef, 0xbf, 0xbd, 0xef, 0xbf, 0xbd, 0xef, 0xbf, 0xbd, 0xef, 0xbf, 0xbd, 0xef, 0xbf, 0xbd, 0xef, 0xbf, 0xbd, 0xef, 0xbf, 0xbd, 0xef, 0xbf, 0xbd, 0xef, 0xbf, 0xbd, 0xa]),
  ([0xa], [0xa])]

def sampleInvalid4 : List (List Nat × List Nat) := [
  ([0x46, 0x6f, 0x72, 0x6d, 0xc, 0x66, 0x65, 0x65, 0x64, 0x20, 0x69, 0x73, 0x20, 0x72, 0x65, 0x70, 0x6c, 0x61, 0x63, 0x65, 0x64, 0x20, 0x62, 0x79, 0x20, 0x77, 0x68, 0x69, 0x74, 0x65, 0x73, 0x70, 0x61, 0x63, 0x65, 0x2e, 0xa], [0x46, 0x6f, 0x72, 0x6d, 0x20, 0x66, 0x65, 0x65, 0x64, 0x20, 0x69, 0x73, 0x20, 0x72, 0x65, 0x70, 0x6c, 0x61, 0x63, 0x65, 0x64, 0x20, 0x62, 0x79, 0x20, 0x77, 0x68, 0x69, 0x74, 0x65, 0x73, 0x70, 0x61, 0x63, 0x65, 0x2e, 0xa]),
  ([0xa], [0xa]),
  ([0x4e, 0x65, 0x77, 0x6c, 0x69, 0x6e, 0x65, 0x73, 0x20, 0x61, 0x72, 0x65, 0x20, 0x63, 0x61, 0x6e, 0x6f, 0x6e, 0x69, 0x63, 0x61, 0x6c, 0x69, 0x7a, 0x65, 0x64, 0x3a, 0xa], [0x4e, 0x65, 0x77, 0x6c, 0x69, 0x6e, 0x65, 0x73, 0x20, 0x61, 0x72, 0x65, 0x20, 0x63, 0x61, 0x6e, 0x6f, 0x6e, 0x69, 0x63, 0x61, 0x6c, 0x69, 0x7a, 0x65, 0x64, 0x3a, 0xa]),
  ([0x20, 0x2d, 0x20, 0x4e, 0x45, 0x4c, 0x20, 0x69, 0x73, 0xc2, 0x85, 0x72, 0x65, 0x70, 0x6c, 0x61, 0x63, 0x65, 0x64, 0xa], [0x20, 0x2d, 0x20, 0x4e, 0x45, 0x4c, 0x20, 0x69, 0x73, 0x20, 0x72, 0x65, 0x70, 0x6c, 0x61, 0x63, 0x65, 0x64, 0xa]),
  ([0x20, 0x2d, 0x20, 0x50, 0x6c, 0x61, 0x69, 0x6e, 0x20, 0x43, 0x52, 0x20, 0x69, 0x73, 0x20, 0x74, 0x72, 0x61, 0x6e, 0x73, 0x6c, 0x61, 0x74, 0x65, 0x64, 0x20, 0x74, 0x6f, 0x20, 0x4e, 0x4c, 0xd, 0x20, 0x2d, 0x20, 0x43, 0x52, 0x4c, 0x46, 0x20, 0x69, 0x73, 0x20, 0x74, 0x72, 0x61, 0x6e, 0x73, 0x6c, 0x61, 0x74, 0x65, 0x64, 0x20, 0x74, 0x6f, 0x20, 0x4e, 0x4c, 0xa], [0x20, 0x2d, 0x20, 0x50, 0x6c, 0x61, 0x69, 0x6e, 0x20, 0x43, 0x52, 0x20, 0x69, 0x73, 0x20, 0x74, 0x72, 0x61, 0x6e, 0x73, 0x6c, 0x61, 0x74, 0x65, 0x64, 0x20, 0x74, 0x6f, 0x20, 0x4e, 0x4c, 0xa, 0x20, 0x2d, 0x20, 0x43, 0x52, 0x4c, 0x46, 0x20, 0x69, 0x73, 0x20, 0x74, 0x72, 0x61, 0x6e, 0x73, 0x6c, 0x61, 0x74, 0x65, 0x64, 0x20, 0x74, 0x6f, 0x20, 0x4e, 0x4c, 0xa]),
  ([0x20, 0x2d, 0x20, 0x4c, 0x53, 0xe2, 0x80, 0xa8, 0x61, 0x6e, 0x64, 0x20, 0x50, 0x53, 0xe2, 0x80, 0xa9, 0x20, 0x61, 0x72, 0x65, 0x20, 0x72, 0x65, 0x70, 0x6c, 0x61, 0x63, 0x65, 0x64, 0x20, 0x62, 0x79, 0x20, 0x77, 0x68, 0x69, 0x74, 0x65, 0x73, 0x70, 0x61, 0x63, 0x65, 0x2e, 0xa], [0x20, 0x2d, 0x20, 0x4c, 0x53, 0x20, 0x61, 0x6e, 0x64, 0x20, 0x50, 0x53, 0x20, 0x20, 0x61, 0x72, 0x65, 0x20, 0x72, 0x65, 0x70, 0x6c, 0x61, 0x63, 0x65, 0x64, 0x20, 0x62, 0x79, 0x20, 0x77, 0x68, 0x69, 0x74, 0x65, 0x73, 0x70, 0x61, 0x63, 0x65, 0x2e, 0xa]),
  ([0xa], [0xa]),
  ([0x42, 0x61, 0x72, 0x65, 0x20, 0x65, 0x73, 0x63, 0x61, 0x70, 0x65, 0x20, 0x63, 0x6f, 0x64, 0x65, 0x73, 0x20, 0x61, 0x72, 0x65, 0x20, 0x72, 0x65, 0x70, 0x6c, 0x61, 0x63, 0x65, 0x64, 0x3a, 0xa], [0x42, 0x61, 0x72, 0x65, 0x20, 0x65, 0x73, 0x63, 0x61, 0x70, 0x65, 0x20, 0x63, 0x6f, 0x64, 0x65, 0x73, 0x20, 0x61, 0x72, 0x65, 0x20, 0x72, 0x65, 0x70, 0x6c, 0x61, 0x63, 0x65, 0x64, 0x3a, 0xa]),
  ([0x20, 0x2d, 0x20, 0x1b, 0xa], [0x20, 0x2d, 0x20, 0xa]), ([0x20, 0x2d, 0x20, 0x1b, 0x1b, 0xa], [0x20, 0x2d, 0x20, 0xa]), ([0xa], [0xa]),
  ([0x57, 0x68, 0x69, 0x6c, 0x65, 0x20, 0x65, 0x73, 0x63, 0x61, 0x70, 0x65, 0x20, 0x73, 0x65, 0x71, 0x75, 0x65, 0x6e, 0x63, 0x65, 0x73, 0x20, 0x61, 0x72, 0x65, 0x20, 0x72, 0x65, 0x6d, 0x6f, 0x76, 0x65, 0x64, 0x3a, 0xa], [0x57, 0x68, 0x69, 0x6c, 0x65, 0x20, 0x65, 0x73, 0x63, 0x61, 0x70, 0x65, 0x20, 0x73, 0x65, 0x71, 0x75, 0x65, 0x6e, 0x63, 0x65, 0x73, 0x20, 0x61, 0x72, 0x65, 0x20, 0x72, 0x65, 0x6d, 0x6f, 0x76, 0x65, 0x64, 0x3a, 0xa]),
  ([0x20, 0x2d, 0x20, 0x1b, 0x5b, 0x6d, 0xa], [0x20, 0x2d, 0x20, 0xa]), ([0x20, 0x2d, 0x20, 0x1b, 0x5b, 0x5b, 0x41, 0xa], [0x20, 0x2d, 0x20, 0xa]),
  ([0x20, 0x2d, 0x20, 0x1b, 0x5d, 0x68, 0x65, 0x6c, 0x6c, 0x6f, 0x20, 0x77, 0x6f, 0x72, 0x6c, 0x64, 7, 0xa], [0x20, 0x2d, 0x20, 0xa])]

def sampleInvalid5 : List (List Nat × List Nat) := [
  ([0xa], [0xa]),
  ([0x4e, 0x6f, 0x6e, 0x63, 0x68, 0x61, 0x72, 0x61, 0x63, 0x74, 0x65, 0x72, 0x73, 0x20, 0x61, 0x72, 0x65, 0x20, 0x72, 0x65, 0x70, 0x6c, 0x61, 0x63, 0x65, 0x64, 0x3a, 0xa], [0x4e, 0x6f, 0x6e, 0x63, 0x68, 0x61, 0x72, 0x61, 0x63, 0x74, 0x65, 0x72, 0x73, 0x20, 0x61, 0x72, 0x65, 0x20, 0x72, 0x65, 0x70, 0x6c, 0x61, 0x63, 0x65, 0x64, 0x3a, 0xa]),
  ([0x20, 0x2d, 0x20, 0xef, 0xb7, 0x90, 0xef, 0xb7, 0x91, 0xef, 0xb7, 0x92, 0xef, 0xb7, 0x93, 0xef, 0xb7, 0x94, 0xef, 0xb7, 0x95, 0xef, 0xb7, 0x96, 0xef, 0xb7, 0x97, 0xef, 0xb7, 0x98, 0xef, 0xb7, 0x99, 0xef, 0xb7, 0x9a, 0xef, 0xb7, 0x9b, 0xef, 0xb7, 0x9c, 0xef, 0xb7, 0x9d, 0xef, 0xb7, 0x9e, 0xef, 0xb7, 0x9f, 0xef, 0xb7, 0xa0, 0xef, 0xb7, 0xa1, 0xef, 0xb7, 0xa2, 0xef, 0xb7, 0xa3, 0xef, 0xb7, 0xa4, 0xef, 0xb7, 0xa5, 0xef, 0xb7, 0xa6, 0xef, 0xb7, 0xa7, 0xef, 0xb7, 0xa8, 0xef, 0xb7, 0xa9, 0xef, 0xb7, 0xaa, 0xef, 0xb7, 0xab, 0xef, 0xb7, 0xac, 0xef, 0xb7, 0xad, 0xef, 0xb7, 0xae, 0xef, 0xb7, 0xaf, 0xef, 0xbf, 0xb9, 0xef, 0xbf, 0xba, 0xef, 0xbf, 0xbb, 0xef, 0xbf, 0xbc, 0xef, 0xbf, 0xbe, 0xef, 0xbf, 0xbf, 0xa], [0x20, 0x2d, 0x20, 0xef, 0xbf, 0xbd, 0xef, 0xbf, 0xbd, 0xef, 0xbf, 0xbd, 0xef, 0xbf, 0xbd, 0xef, 0xbf, 0xbd, 0xef, 0xbf, 0xbd, 0xef, 0xbf, 0xbd, 0xef, 0xbf, 0xbd, 0xef, 0xbf, 0xbd, 0xef, 0xbf, 0xbd, 0xef, 0xbf, 0xbd, 0xef, 0xbf, 0xbd, 0xef, 0xbf, 0xbd, 0xef, 0xbf, 0xbd, 0xef, 0xbf, 0xbd, 0xef, 0xbf, 0xbd, 0xef, 0xbf, 0xbd, 0xef, 0xbf, 0xbd, 0xef, 0xbf, 0xbd, 0xef, 0xbf, 0xbd, 0xef, 0xbf, 0xbd, 0xef, 0xbf, 0xbd, 0xef, 0xbf, 0xbd, 0xef, 0xbf, 0xbd, 0xef, 0xbf, 0xbd, 0xef, 0xbf, 0xbd, 0xef, 0xbf, 0xbd, 0xef, 0xbf, 0xbd, 0xef, 0xbf, 0xbd, 0xef, 0xbf, 0xbd, 0xef, 0xbf, 0xbd, 0xef, 0xbf, 0xbd, 0xef, 0xbf, 0xbd, 0xef, 0xbf, 0xbd, 0xef, 0xbf, 0xbd, 0xef, 0xbf, 0xbd, 0xef, 0xbf, 0xbd, 0xef, 0xbf, 0xbd, 0xa]),
  ([0x20, 0x2d, 0x20, 0xf0, 0x9f, 0xbf, 0xbe, 0xf0, 0x9f, 0xbf, 0xbf, 0xf0, 0xaf, 0xbf, 0xbe, 0xf0, 0xaf, 0xbf, 0xbf, 0xf0, 0xbf, 0xbf, 0xbe, 0xf0, 0xbf, 0xbf, 0xbf, 0xf1, 0x8f, 0xbf, 0xbe, 0xf1, 0x8f, 0xbf, 0xbf, 0xf1, 0x9f, 0xbf, 0xbe, 0xf1, 0x9f, 0xbf, 0xbf, 0xf1, 0xaf, 0xbf, 0xbe, 0xf1, 0xaf, 0xbf, 0xbf, 0xf1, 0xbf, 0xbf, 0xbe, 0xf1, 0xbf, 0xbf, 0xbf, 0xf2, 0x8f, 0xbf, 0xbe, 0xf2, 0x8f, 0xbf, 0xbf, 0xf2, 0x9f, 0xbf, 0xbe, 0xf2, 0x9f, 0xbf, 0xbf, 0xf2, 0xaf, 0xbf, 0xbe, 0xf2, 0xaf, 0xbf, 0xbf, 0xf2, 0xbf, 0xbf, 0xbe, 0xf2, 0xbf, 0xbf, 0xbf, 0xf3, 0x8f, 0xbf, 0xbe, 0xf3, 0x8f, 0xbf, 0xbf, 0xf3, 0x9f, 0xbf, 0xbe, 0xf3, 0x9f, 0xbf, 0xbf, 0xf3, 0xaf, 0xbf, 0xbe, 0xf3, 0xaf, 0xbf, 0xbf, 0xf3, 0xbf, 0xbf, 0xbe, 0xf3, 0xbf, 0xbf, 0xbf, 0xf4, 0x8f, 0xbf, 0xbe, 0xf4, 0x8f, 0xbf, 0xbf, 0xa], [0x20, 0x2d, 0x20, 0xef, 0xbf, 0xbd, 0xef, 0xbf, 0xbd, 0xef, 0xbf, 0xbd, 0xef, 0xbf, 0xbd, 0xef, 0xbf, 0xbd, 0xef, 0xbf, 0xbd, 0xef, 0xbf, 0xbd, 0xef, 0xbf, 0xbd, 0xef, 0xbf, 0xbd, 0xef, 0xbf, 0xbd, 0xef, 0xbf, 0xbd, 0xef, 0xbf, 0xbd, 0xef, 0xbf, 0xbd, 0xef, 0xbf, 0xbd, 0xef, 0xbf, 0xbd, 0xef, 0xbf, 0xbd, 0xef, 0xbf, 0xbd, 0xef, 0xbf, 0xbd, 0xef, 0xbf, 0xbd, 0xef, 0xbf, 0xbd, 0xef, 0xbf, 0xbd, 0xef, 0xbf, 0xbd, 0xef, 0xbf, 0xbd, 0xef, 0xbf, 0xbd, 0xef, 0xbf, 0xbd, 0xef, 0xbf, 0xbd, 0xef, 0xbf, 0xbd, 0xef, 0xbf, 0xbd, 0xef, 0xbf, 0xbd, 0xef, 0xbf, 0xbd, 0xef, 0xbf, 0xbd, 0xef, 0xbf, 0xbd, 0xa]),
  ([0xa], [0xa]),
  ([0x44, 0x65, 0x70, 0x72, 0x65, 0x63, 0x61, 0x74, 0x65, 0x64, 0x20, 0x61, 0x6e, 0x64, 0x20, 0x64, 0x69, 0x73, 0x63, 0x6f, 0x75, 0x72, 0x61, 0x67, 0x65, 0x64, 0x20, 0x76, 0x61, 0x6c, 0x75, 0x65, 0x73, 0x20, 0x61, 0x72, 0x65, 0x20, 0x72, 0x65, 0x70, 0x6c, 0x61, 0x63, 0x65, 0x64, 0x3a, 0xa], [0x44, 0x65, 0x70, 0x72, 0x65, 0x63, 0x61, 0x74, 0x65, 0x64, 0x20, 0x61, 0x6e, 0x64, 0x20, 0x64, 0x69, 0x73, 0x63, 0x6f, 0x75, 0x72, 0x61, 0x67, 0x65, 0x64, 0x20, 0x76, 0x61, 0x6c, 0x75, 0x65, 0x73, 0x20, 0x61, 0x72, 0x65, 0x20, 0x72, 0x65, 0x70, 0x6c, 0x61, 0x63, 0x65, 0x64, 0x3a, 0xa]),
  ([0x20, 0x2d, 0x20, 0xc5, 0x89, 0xd9, 0xb3, 0x41, 0xe0, 0xbd, 0xb7, 0x41, 0xe0, 0xbd, 0xb9, 0xe1, 0x9e, 0xa3, 0xe1, 0x9e, 0xa4, 0xe2, 0x80, 0xa8, 0xe2, 0x80, 0xa9, 0x41, 0xe2, 0xb7, 0xb5, 0xf0, 0x91, 0x87, 0x84, 0xa], [0x20, 0x2d, 0x20, 0xca, 0xbc, 0x6e, 0xd8, 0xa7, 0xd9, 0x9f, 0x41, 0xe0, 0xbe, 0xb2, 0xe0, 0xbd, 0xb1, 0xe0, 0xbe, 0x80, 0x41, 0xe0, 0xbe, 0xb3, 0xe0, 0xbd, 0xb1, 0xe0, 0xbe, 0x80, 0xe1, 0x9e, 0xa2, 0xe1, 0x9e, 0xa2, 0xe1, 0x9e, 0xb6, 0x20, 0x20, 0x41, 0xe2, 0xb7, 0xad, 0xe2, 0xb7, 0xae, 0xf0, 0x91, 0x86, 0x8f, 0xf0, 0x91, 0x86, 0x80, 0xa]),
  ([0xa], [0xa]),
  ([0x41, 0x6e, 0x64, 0x20, 0x42, 0x4f, 0x4d, 0xef, 0xbb, 0xbf, 0x73, 0x20, 0x61, 0x72, 0x65, 0x20, 0x72, 0x65, 0x70, 0x6c, 0x61, 0x63, 0x65, 0x64, 0x20, 0x77, 0x69, 0x74, 0x68, 0x20, 0x70, 0x6c, 0x61, 0x69, 0x6e, 0x20, 0x6e, 0x6f, 0x6e, 0x2d, 0x62, 0x72, 0x65, 0x61, 0x6b, 0x69, 0x6e, 0x67, 0x20, 0x77, 0x68, 0x69, 0x74, 0x65, 0x73, 0x70, 0x61, 0x63, 0x65, 0x2e, 0xa], [0x41, 0x6e, 0x64, 0x20, 0x42, 0x4f, 0x4d, 0xe2, 0x81, 0xa0, 0x73, 0x20, 0x61, 0x72, 0x65, 0x20, 0x72, 0x65, 0x70, 0x6c, 0x61, 0x63, 0x65, 0x64, 0x20, 0x77, 0x69, 0x74, 0x68, 0x20, 0x70, 0x6c, 0x61, 0x69, 0x6e, 0x20, 0x6e, 0x6f, 0x6e, 0x2d, 0x62, 0x72, 0x65, 0x61, 0x6b, 0x69, 0x6e, 0x67, 0x20, 0x77, 0x68, 0x69, 0x74, 0x65, 0x73, 0x70, 0x61, 0x63, 0x65, 0x2e, 0xa]),
  ([0xa], [0xa]),
  ([0x28, 0x42, 0x61, 0x73, 0x69, 0x63, 0x20, 0x54, 0x65, 0x78, 0x74, 0x20, 0x6d, 0x75, 0x73, 0x74, 0x20, 0x6e, 0x6f, 0x74, 0x20, 0x65, 0x6e, 0x64, 0x20, 0x77, 0x69, 0x74, 0x68, 0x20, 0x61, 0x20, 0x5a, 0x57, 0x4a, 0x2c, 0x20, 0x61, 0x6e, 0x64, 0x20, 0x6d, 0x75, 0x73, 0x74, 0x20, 0x68, 0x61, 0x76, 0x65, 0x20, 0x61, 0x20, 0x74, 0x72, 0x61, 0x69, 0x6c, 0x69, 0x6e, 0x67, 0x20, 0x6e, 0x65, 0x77, 0x6c, 0x69, 0x6e, 0x65, 0x29, 0x2e, 0xe2, 0x80, 0x8d], [0x28, 0x42, 0x61, 0x73, 0x69, 0x63, 0x20, 0x54, 0x65, 0x78, 0x74, 0x20, 0x6d, 0x75, 0x73, 0x74, 0x20, 0x6e, 0x6f, 0x74, 0x20, 0x65, 0x6e, 0x64, 0x20, 0x77, 0x69, 0x74, 0x68, 0x20, 0x61, 0x20, 0x5a, 0x57, 0x4a, 0x2c, 0x20, 0x61, 0x6e, 0x64, 0x20, 0x6d, 0x75, 0x73, 0x74, 0x20, 0x68, 0x61, 0x76, 0x65, 0x20, 0x61, 0x20, 0x74, 0x72, 0x61, 0x69, 0x6c, 0x69, 0x6e, 0x67, 0x20, 0x6e, 0x65, 0x77, 0x6c, 0x69, 0x6e, 0x65, 0x29, 0x2e, 0xe2, 0x80, 0x8d, 0xcd, 0x8f])]

def sampleInvalid : List (List Nat × List Nat) := sampleInvalid0 ++ sampleInvalid1 ++ sampleInvalid2 ++ sampleInvalid3 ++ sampleInvalid4 ++ sampleInvalid5

end Verif.Tables
