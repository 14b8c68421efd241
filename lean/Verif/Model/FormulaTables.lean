/-!
Constant tables of `contracts/formula/fixed_map_formula.py`, copied mechanically from the text of that file by
`tools/gen_tables.py`. Hexadecimal literals are kept as they are in the source.
-/
namespace Verif.Formula

/-- `_ONE`, fixed_map_formula.py:28 -/
def ONE : Int := 1

/-- `_MAX_WEIGHT`, fixed_map_formula.py:29 -/
def MAX_WEIGHT : Int := 1000000

/-- `_MIN_PRECISION`, fixed_map_formula.py:30 -/
def MIN_PRECISION : Nat := 32

/-- `_MAX_PRECISION`, fixed_map_formula.py:31 -/
def MAX_PRECISION : Nat := 127

/-- `_FIXED_1`, fixed_map_formula.py:34 -/
def FIXED_1 : Int := 0x080000000000000000000000000000000

/-- `_FIXED_2`, fixed_map_formula.py:35 -/
def FIXED_2 : Int := 0x100000000000000000000000000000000

/-- `_MAX_NUM`, fixed_map_formula.py:36 -/
def MAX_NUM : Int := 0x200000000000000000000000000000000

/-- `_LN2_NUMERATOR`, fixed_map_formula.py:39 -/
def LN2_NUMERATOR : Int := 0x3f80fe03f80fe03f80fe03f80fe03f8

/-- `_LN2_DENOMINATOR`, fixed_map_formula.py:40 -/
def LN2_DENOMINATOR : Int := 0x5b9de1d10bf4103d647b0955897ba80

/-- `_OPT_LOG_MAX_VAL`, fixed_map_formula.py:43 -/
def OPT_LOG_MAX_VAL : Int := 0x15bf0a8b1457695355fb8ac404e7a79e3

/-- `_OPT_EXP_MAX_VAL`, fixed_map_formula.py:44 -/
def OPT_EXP_MAX_VAL : Int := 0x800000000000000000000000000000000

/-- `_max_exp_array[32..127]` (entries 0..31 are `None`), fixed_map_formula.py:80-175 -/
def maxExpTable : List Int := [
  0x1c35fedd14ffffffffffffffffffffffff,
  0x1b0ce43b323fffffffffffffffffffffff,
  0x19f0028ec1ffffffffffffffffffffffff,
  0x18ded91f0e7fffffffffffffffffffffff,
  0x17d8ec7f0417ffffffffffffffffffffff,
  0x16ddc6556cdbffffffffffffffffffffff,
  0x15ecf52776a1ffffffffffffffffffffff,
  0x15060c256cb2ffffffffffffffffffffff,
  0x1428a2f98d72ffffffffffffffffffffff,
  0x13545598e5c23fffffffffffffffffffff,
  0x1288c4161ce1dfffffffffffffffffffff,
  0x11c592761c666fffffffffffffffffffff,
  0x110a688680a757ffffffffffffffffffff,
  0x1056f1b5bedf77ffffffffffffffffffff,
  0x0faadceceeff8bffffffffffffffffffff,
  0x0f05dc6b27edadffffffffffffffffffff,
  0x0e67a5a25da4107fffffffffffffffffff,
  0x0dcff115b14eedffffffffffffffffffff,
  0x0d3e7a392431239fffffffffffffffffff,
  0x0cb2ff529eb71e4fffffffffffffffffff,
  0x0c2d415c3db974afffffffffffffffffff,
  0x0bad03e7d883f69bffffffffffffffffff,
  0x0b320d03b2c343d5ffffffffffffffffff,
  0x0abc25204e02828dffffffffffffffffff,
  0x0a4b16f74ee4bb207fffffffffffffffff,
  0x09deaf736ac1f569ffffffffffffffffff,
  0x0976bd9952c7aa957fffffffffffffffff,
  0x09131271922eaa606fffffffffffffffff,
  0x08b380f3558668c46fffffffffffffffff,
  0x0857ddf0117efa215bffffffffffffffff,
  0x07ffffffffffffffffffffffffffffffff,
  0x07abbf6f6abb9d087fffffffffffffffff,
  0x075af62cbac95f7dfa7fffffffffffffff,
  0x070d7fb7452e187ac13fffffffffffffff,
  0x06c3390ecc8af379295fffffffffffffff,
  0x067c00a3b07ffc01fd6fffffffffffffff,
  0x0637b647c39cbb9d3d27ffffffffffffff,
  0x05f63b1fc104dbd39587ffffffffffffff,
  0x05b771955b36e12f7235ffffffffffffff,
  0x057b3d49dda84556d6f6ffffffffffffff,
  0x054183095b2c8ececf30ffffffffffffff,
  0x050a28be635ca2b888f77fffffffffffff,
  0x04d5156639708c9db33c3fffffffffffff,
  0x04a23105873875bd52dfdfffffffffffff,
  0x0471649d87199aa990756fffffffffffff,
  0x04429a21a029d4c1457cfbffffffffffff,
  0x0415bc6d6fb7dd71af2cb3ffffffffffff,
  0x03eab73b3bbfe282243ce1ffffffffffff,
  0x03c1771ac9fb6b4c18e229ffffffffffff,
  0x0399e96897690418f785257fffffffffff,
  0x0373fc456c53bb779bf0ea9fffffffffff,
  0x034f9e8e490c48e67e6ab8bfffffffffff,
  0x032cbfd4a7adc790560b3337ffffffffff,
  0x030b50570f6e5d2acca94613ffffffffff,
  0x02eb40f9f620fda6b56c2861ffffffffff,
  0x02cc8340ecb0d0f520a6af58ffffffffff,
  0x02af09481380a0a35cf1ba02ffffffffff,
  0x0292c5bdd3b92ec810287b1b3fffffffff,
  0x0277abdcdab07d5a77ac6d6b9fffffffff,
  0x025daf6654b1eaa55fd64df5efffffffff,
  0x0244c49c648baa98192dce88b7ffffffff,
  0x022ce03cd5619a311b2471268bffffffff,
  0x0215f77c045fbe885654a44a0fffffffff,
  0x01ffffffffffffffffffffffffffffffff,
  0x01eaefdbdaaee7421fc4d3ede5ffffffff,
  0x01d6bd8b2eb257df7e8ca57b09bfffffff,
  0x01c35fedd14b861eb0443f7f133fffffff,
  0x01b0ce43b322bcde4a56e8ada5afffffff,
  0x019f0028ec1fff007f5a195a39dfffffff,
  0x018ded91f0e72ee74f49b15ba527ffffff,
  0x017d8ec7f04136f4e5615fd41a63ffffff,
  0x016ddc6556cdb84bdc8d12d22e6fffffff,
  0x015ecf52776a1155b5bd8395814f7fffff,
  0x015060c256cb23b3b3cc3754cf40ffffff,
  0x01428a2f98d728ae223ddab715be3fffff,
  0x013545598e5c23276ccf0ede68034fffff,
  0x01288c4161ce1d6f54b7f61081194fffff,
  0x011c592761c666aa641d5a01a40f17ffff,
  0x0110a688680a7530515f3e6e6cfdcdffff,
  0x01056f1b5bedf75c6bcb2ce8aed428ffff,
  0x00faadceceeff8a0890f3875f008277fff,
  0x00f05dc6b27edad306388a600f6ba0bfff,
  0x00e67a5a25da41063de1495d5b18cdbfff,
  0x00dcff115b14eedde6fc3aa5353f2e4fff,
  0x00d3e7a3924312399f9aae2e0f868f8fff,
  0x00cb2ff529eb71e41582cccd5a1ee26fff,
  0x00c2d415c3db974ab32a51840c0b67edff,
  0x00bad03e7d883f69ad5b0a186184e06bff,
  0x00b320d03b2c343d4829abd6075f0cc5ff,
  0x00abc25204e02828d73c6e80bcdb1a95bf,
  0x00a4b16f74ee4bb2040a1ec6c15fbbf2df,
  0x009deaf736ac1f569deb1b5ae3f36c130f,
  0x00976bd9952c7aa957f5937d790ef65037,
  0x009131271922eaa6064b73a22d0bd4f2bf,
  0x008b380f3558668c46c91c49a2f8e967b9,
  0x00857ddf0117efa215952912839f6473e6]

/-- Coefficients `33!/k!`, k = 2..33, of `_general_exp`, fixed_map_formula.py:411-505, in source order -/
def generalExpCoeffs : List Int := [
  0x3442c4e6074a82f1797f72ac0000000,
  0x116b96f757c380fb287fd0e40000000,
  0x045ae5bdd5f0e03eca1ff4390000000,
  0x00defabf91302cd95b9ffda50000000,
  0x002529ca9832b22439efff9b8000000,
  0x00054f1cf12bd04e516b6da88000000,
  0x0000a9e39e257a09ca2d6db51000000,
  0x000012e066e7b839fa050c309000000,
  0x000001e33d7d926c329a1ad1a800000,
  0x0000002bee513bdb4a6b19b5f800000,
  0x00000003a9316fa79b88eccf2a00000,
  0x0000000048177ebe1fa812375200000,
  0x0000000005263fe90242dcbacf00000,
  0x000000000057e22099c030d94100000,
  0x0000000000057e22099c030d9410000,
  0x00000000000052b6b54569976310000,
  0x00000000000004985f67696bf748000,
  0x000000000000003dea12ea99e498000,
  0x00000000000000031880f2214b6e000,
  0x000000000000000025bcff56eb36000,
  0x000000000000000001b722e10ab1000,
  0x0000000000000000001317c70077000,
  0x00000000000000000000cba84aafa00,
  0x00000000000000000000082573a0a00,
  0x00000000000000000000005035ad900,
  0x000000000000000000000002f881b00,
  0x0000000000000000000000001b29340,
  0x00000000000000000000000000efc40,
  0x0000000000000000000000000007fe0,
  0x0000000000000000000000000000420,
  0x0000000000000000000000000000021,
  0x0000000000000000000000000000001]

/-- The divisor `33!` of `_general_exp`, fixed_map_formula.py:508 -/
def generalExpDen : Int := 0x688589cc0e9505e2f2fee5580000000

/-- `(threshold = divisor, summand)` of the eight range reductions of `_optimal_log`, fixed_map_formula.py:526-557 -/
def optLogHi : List (Int × Int) := [
  (0xd3094c70f034de4b96ff7d5b6f99fcd8, 0x40000000000000000000000000000000),
  (0xa45af1e1f40c333b3de1db4dd55f29a7, 0x20000000000000000000000000000000),
  (0x910b022db7ae67ce76b441c27035c6a1, 0x10000000000000000000000000000000),
  (0x88415abbe9a76bead8d00cf112e4d4a8, 0x08000000000000000000000000000000),
  (0x84102b00893f64c705e841d5d4064bd3, 0x04000000000000000000000000000000),
  (0x8204055aaef1c8bd5c3259f4822735a2, 0x02000000000000000000000000000000),
  (0x810100ab00222d861931c15e39b44e99, 0x01000000000000000000000000000000),
  (0x808040155aabbbe9451521693554f733, 0x00800000000000000000000000000000)]

/-- `(num, den)` of the eight series terms `z * (num - y) // den` of `_optimal_log`, fixed_map_formula.py:561-583 -/
def optLogLo : List (Int × Int) := [
  (0x100000000000000000000000000000000, 0x100000000000000000000000000000000),
  (0x0aaaaaaaaaaaaaaaaaaaaaaaaaaaaaaaa, 0x200000000000000000000000000000000),
  (0x099999999999999999999999999999999, 0x300000000000000000000000000000000),
  (0x092492492492492492492492492492492, 0x400000000000000000000000000000000),
  (0x08e38e38e38e38e38e38e38e38e38e38e, 0x500000000000000000000000000000000),
  (0x08ba2e8ba2e8ba2e8ba2e8ba2e8ba2e8b, 0x600000000000000000000000000000000),
  (0x089d89d89d89d89d89d89d89d89d89d89, 0x700000000000000000000000000000000),
  (0x088888888888888888888888888888888, 0x800000000000000000000000000000000)]

/-- Coefficients `20!/k!`, k = 2..20, of `_optimal_exp`, fixed_map_formula.py:605-661 -/
def optExpCoeffs : List Int := [
  0x10e1b3be415a0000,
  0x05a0913f6b1e0000,
  0x0168244fdac78000,
  0x004807432bc18000,
  0x000c0135dca04000,
  0x0001b707b1cdc000,
  0x000036e0f639b800,
  0x00000618fee9f800,
  0x0000009c197dcc00,
  0x0000000e30dce400,
  0x000000012ebd1300,
  0x0000000017499f00,
  0x0000000001a9d480,
  0x00000000001c6380,
  0x000000000001c638,
  0x0000000000001ab8,
  0x000000000000017c,
  0x0000000000000014,
  0x0000000000000001]

/-- The divisor `20!` of `_optimal_exp`, fixed_map_formula.py:663 -/
def optExpDen : Int := 0x21c3677c82b40000

/-- The modulus of `_optimal_exp`, fixed_map_formula.py:604 -/
def optExpMod : Int := 0x10000000000000000000000000000000

/-- `(bit, num, den)` of the seven factors of `_optimal_exp`, fixed_map_formula.py:665-685 -/
def optExpHi : List (Int × Int × Int) := [
  (0x010000000000000000000000000000000, 0x1c3d6a24ed82218787d624d3e5eba95f9, 0x18ebef9eac820ae8682b9793ac6d1e776),
  (0x020000000000000000000000000000000, 0x18ebef9eac820ae8682b9793ac6d1e778, 0x1368b2fc6f9609fe7aceb46aa619baed4),
  (0x040000000000000000000000000000000, 0x1368b2fc6f9609fe7aceb46aa619baed5, 0x0bc5ab1b16779be3575bd8f0520a9f21f),
  (0x080000000000000000000000000000000, 0x0bc5ab1b16779be3575bd8f0520a9f21e, 0x0454aaa8efe072e7f6ddbab84b40a55c9),
  (0x100000000000000000000000000000000, 0x0454aaa8efe072e7f6ddbab84b40a55c5, 0x00960aadc109e7a3bf4578099615711ea),
  (0x200000000000000000000000000000000, 0x00960aadc109e7a3bf4578099615711d7, 0x0002bf84208204f5977f9a8cf01fdce3d),
  (0x400000000000000000000000000000000, 0x0002bf84208204f5977f9a8cf01fdc307, 0x0000003c6ab775dd0b95b4cbee7e65d11)]

end Verif.Formula
