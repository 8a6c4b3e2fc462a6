import Verif.Source.Lang

/-!
# `sml/src/sml_crc16.c`

Written by `tools/c2lean.py`.
-/

namespace Sml.C

/-- `crctab` (sml/src/sml_crc16.c:24). -/
def crctab : List Int := [
  0, 4489, 8978, 12955, 17956, 22445, 25910, 29887, 35912, 40385, 44890, 48851,
  51820, 56293, 59774, 63735, 4225, 264, 13203, 8730, 22181, 18220, 30135, 25662,
  40137, 36160, 49115, 44626, 56045, 52068, 63999, 59510, 8450, 12427, 528, 5017,
  26406, 30383, 17460, 21949, 44362, 48323, 36440, 40913, 60270, 64231, 51324, 55797,
  12675, 8202, 4753, 792, 30631, 26158, 21685, 17724, 48587, 44098, 40665, 36688,
  64495, 60006, 55549, 51572, 16900, 21389, 24854, 28831, 1056, 5545, 10034, 14011,
  52812, 57285, 60766, 64727, 34920, 39393, 43898, 47859, 21125, 17164, 29079, 24606,
  5281, 1320, 14259, 9786, 57037, 53060, 64991, 60502, 39145, 35168, 48123, 43634,
  25350, 29327, 16404, 20893, 9506, 13483, 1584, 6073, 61262, 65223, 52316, 56789,
  43370, 47331, 35448, 39921, 29575, 25102, 20629, 16668, 13731, 9258, 5809, 1848,
  65487, 60998, 56541, 52564, 47595, 43106, 39673, 35696, 33800, 38273, 42778, 46739,
  49708, 54181, 57662, 61623, 2112, 6601, 11090, 15067, 20068, 24557, 28022, 31999,
  38025, 34048, 47003, 42514, 53933, 49956, 61887, 57398, 6337, 2376, 15315, 10842,
  24293, 20332, 32247, 27774, 42250, 46211, 34328, 38801, 58158, 62119, 49212, 53685,
  10562, 14539, 2640, 7129, 28518, 32495, 19572, 24061, 46475, 41986, 38553, 34576,
  62383, 57894, 53437, 49460, 14787, 10314, 6865, 2904, 32743, 28270, 23797, 19836,
  50700, 55173, 58654, 62615, 32808, 37281, 41786, 45747, 19012, 23501, 26966, 30943,
  3168, 7657, 12146, 16123, 54925, 50948, 62879, 58390, 37033, 33056, 46011, 41522,
  23237, 19276, 31191, 26718, 7393, 3432, 16371, 11898, 59150, 63111, 50204, 54677,
  41258, 45219, 33336, 37809, 27462, 31439, 18516, 23005, 11618, 15595, 3696, 8185,
  63375, 58886, 54429, 50452, 45483, 40994, 37561, 33584, 31687, 27214, 22741, 18780,
  15843, 11370, 7921, 3960]

/-- `sml_crc16_calculate` (sml/src/sml_crc16.c:48-59).
```
u16 sml_crc16_calculate(unsigned char *cp, int len) {
  u16 fcs = PPPINITFCS16;

  while (len--) {
    fcs = (fcs >> 8) ^ crctab[(fcs ^ *cp++) & 0xff];
  }

  fcs ^= 0xffff;
  fcs = ((fcs & 0xff) << 8) | ((fcs & 0xff00) >> 8);

  return fcs;
}
```
Variables: 0 `cp`, 1 `len`, 2 `fcs`. -/
def sml_crc16_calculate : FunDef where
  params := [none, some .i32]
  res := some .u16
  body := [
    .set .u16 2 (.lit .i32 65535),
    .loop (.incVar .i32 1 (-1)) [
      .set .u16 2 (.bin .bxor (.bin .shr (.var 2) (.lit .i32 8)) (.tab .u16 crctab (.bin .band (.bin .bxor (.var 2) (.deref .u8 (.incPtr 0))) (.lit .i32 255))))] [],
    .set .u16 2 (.bin .bxor (.var 2) (.lit .i32 65535)),
    .set .u16 2 (.bin .bor (.bin .shl (.bin .band (.var 2) (.lit .i32 255)) (.lit .i32 8)) (.bin .shr (.bin .band (.var 2) (.lit .i32 65280)) (.lit .i32 8))),
    .ret (.var 2)]

/-- `sml_crc16kermit_calculate` (sml/src/sml_crc16.c:61-69).
```
u16 sml_crc16kermit_calculate(unsigned char *cp, int len) {
  u16 crc = 0x000;

  while (len--) {
    crc = (crc >> 8) ^ crctab[(crc ^ *cp++) & 0xff];
  }

  return crc;
}
```
Variables: 0 `cp`, 1 `len`, 2 `crc`. -/
def sml_crc16kermit_calculate : FunDef where
  params := [none, some .i32]
  res := some .u16
  body := [
    .set .u16 2 (.lit .i32 0),
    .loop (.incVar .i32 1 (-1)) [
      .set .u16 2 (.bin .bxor (.bin .shr (.var 2) (.lit .i32 8)) (.tab .u16 crctab (.bin .band (.bin .bxor (.var 2) (.deref .u8 (.incPtr 0))) (.lit .i32 255))))] [],
    .ret (.var 2)]

end Sml.C
