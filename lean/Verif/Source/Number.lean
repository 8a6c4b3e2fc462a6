import Verif.Source.Lang

/-!
# `sml/src/sml_number.c`

Written by `tools/c2lean.py`.
-/

namespace Sml.C

/-- `sml_number_byte_swap` (sml/src/sml_number.c:26-34).
```
static void sml_number_byte_swap(unsigned char *bytes, int bytes_len) {
  int i;
  unsigned char ob[bytes_len];

  memcpy(&ob, bytes, bytes_len);

  for (i = 0; i < bytes_len; i++)
    bytes[i] = ob[bytes_len - (i + 1)];
}
```
Variables: 0 `bytes`, 1 `bytes_len`, 2 `i`, 3 `ob`. -/
def sml_number_byte_swap : FunDef where
  params := [none, some .i32]
  res := none
  body := [
    .bytes 3 (.var 1),
    .memcpy (.var 3) (.var 0) (.var 1),
    .set .i32 2 (.lit .i32 0),
    .loop (.bin .lt (.var 2) (.var 1)) [
      .stByte .u8 (.var 0) (.var 2) (.byte .u8 (.var 3) (.bin .sub (.var 1) (.bin .add (.var 2) (.lit .i32 1))))] [
      .set .i32 2 (.bin .add (.var 2) (.lit .i32 1))]]

/-- `sml_number_endian` (sml/src/sml_number.c:36-44).
```
static int sml_number_endian() {
  int i = 1;
  char *p = (char *)&i;

  if (p[0] == 1)
    return SML_LITTLE_ENDIAN;
  else
    return SML_BIG_ENDIAN;
}
```
Variables: 0 `i`, 1 `p`. -/
def sml_number_endian : FunDef where
  params := []
  res := some .i32
  body := [
    .bytes 0 (.lit .u64 4),
    .stDeref .i32 (.var 0) (.lit .i32 1),
    .setPtr 1 (.var 0),
    .ite (.bin .eq (.byte .i8 (.var 1) (.lit .i32 0)) (.lit .i32 1)) [
      .ret (.lit .i32 0)] [
      .ret (.lit .i32 1)]]

/-- `sml_number_init` (sml/src/sml_number.c:46-66).
```
void *sml_number_init(u64 number, unsigned char type __attribute__((unused)), int size) {

  const char *bytes = (const char *)&number;

  // Swap bytes of big-endian number so that
  // memcpy copies the right part
  if (sml_number_endian() == SML_BIG_ENDIAN) {
    bytes += sizeof(u64) - size;
  }

  char *np = malloc(size);
  if (np == NULL) {
    goto error;
  }
  memcpy(np, bytes, size);

  return np;

error:
  return NULL;
}
```
Variables: 0 `number`, 1 `type`, 2 `size`, 3 `number`, 4 `bytes`, 5 `np`. Labels: 0 `error`. -/
def sml_number_init : FunDef where
  params := [some .u64, some .u8, some .i32]
  res := none
  body := [
    .bytes 3 (.lit .u64 8),
    .stDeref .u64 (.var 3) (.var 0),
    .setPtr 4 (.var 3),
    .ite (.bin .eq (.call .sml_number_endian []) (.lit .i32 1)) [
      .setPtr 4 (.addr (.var 4) (.bin .sub (.lit .u64 8) (.var 2)))] [],
    .setPtr 5 (.mallocBytes (.var 2)),
    .ite (.bin .eq (.var 5) .null) [
      .goto 0] [],
    .memcpy (.var 5) (.var 4) (.var 2),
    .ret (.var 5),
    .label 0,
    .ret .null]

/-- `sml_number_parse` (sml/src/sml_number.c:68-129).
```
void *sml_number_parse(sml_buffer *buf, unsigned char type, int max_size) {
  if (sml_buf_optional_is_skipped(buf)) {
    return NULL;
  }

  int l, i;
  unsigned char b;
  short negative_int = 0;

  if ((buf->cursor + 1) > buf->buffer_len) { // at least 1 byte for type?
    buf->error = 1;
    return NULL;
  }

  if (sml_buf_get_next_type(buf) != type) {
    buf->error = 1;
    return NULL;
  }

  l = sml_buf_get_next_length(buf);
  if (l < 0 || l > max_size) {
    buf->error = 1;
    return NULL;
  }

  unsigned char *np = malloc(max_size);
  memset(np, 0, max_size);

  // at least l bytes available?
  if ((buf->cursor + l) > buf->buffer_len) {
    buf->error = 1;
    free(np);
    return NULL;
  }

  if ((buf->cursor + 1) > buf->buffer_len) { // at least 1 byte?
    buf->error = 1;
    free(np);
    return NULL;
  }

  b = sml_buf_get_current_byte(buf);
  if (type == SML_TYPE_INTEGER && (b & 128)) {
    negative_int = 1;
  }

  int missing_bytes = max_size - l;
  memcpy(&(np[missing_bytes]), sml_buf_get_current_buf(buf), l);

  if (negative_int) {
    for (i = 0; i < missing_bytes; i++) {
      np[i] = 0xFF;
    }
  }

  if (!(sml_number_endian() == SML_BIG_ENDIAN)) {
    sml_number_byte_swap(np, max_size);
  }
  sml_buf_update_bytes_read(buf, l);

  return np;
}
```
Variables: 0 `buf`, 1 `type`, 2 `max_size`, 3 `l`, 4 `i`, 5 `b`, 6 `negative_int`, 7 `np`, 8 `missing_bytes`. -/
def sml_number_parse : FunDef where
  params := [none, some .u8, some .i32]
  res := none
  body := [
    .ite (.call .sml_buf_optional_is_skipped [.var 0]) [
      .ret .null] [],
    .set .i16 6 (.lit .i32 0),
    .ite (.bin .gt (.bin .add (.ldInt .u64 (.var 0) 1) (.lit .i32 1)) (.ldInt .u64 (.var 0) 0)) [
      .stInt .i32 (.var 0) 2 (.lit .i32 1),
      .ret .null] [],
    .ite (.bin .ne (.call .sml_buf_get_next_type [.var 0]) (.var 1)) [
      .stInt .i32 (.var 0) 2 (.lit .i32 1),
      .ret .null] [],
    .set .i32 3 (.call .sml_buf_get_next_length [.var 0]),
    .ite (.or (.bin .lt (.var 3) (.lit .i32 0)) (.bin .gt (.var 3) (.var 2))) [
      .stInt .i32 (.var 0) 2 (.lit .i32 1),
      .ret .null] [],
    .setPtr 7 (.mallocBytes (.var 2)),
    .memset (.var 7) (.lit .i32 0) (.var 2),
    .ite (.bin .gt (.bin .add (.ldInt .u64 (.var 0) 1) (.var 3)) (.ldInt .u64 (.var 0) 0)) [
      .stInt .i32 (.var 0) 2 (.lit .i32 1),
      .free (.var 7),
      .ret .null] [],
    .ite (.bin .gt (.bin .add (.ldInt .u64 (.var 0) 1) (.lit .i32 1)) (.ldInt .u64 (.var 0) 0)) [
      .stInt .i32 (.var 0) 2 (.lit .i32 1),
      .free (.var 7),
      .ret .null] [],
    .set .u8 5 (.call .sml_buf_get_current_byte [.var 0]),
    .ite (.and (.bin .eq (.var 1) (.lit .i32 80)) (.bin .band (.var 5) (.lit .i32 128))) [
      .set .i16 6 (.lit .i32 1)] [],
    .set .i32 8 (.bin .sub (.var 2) (.var 3)),
    .memcpy (.addr (.var 7) (.var 8)) (.call .sml_buf_get_current_buf [.var 0]) (.var 3),
    .ite (.var 6) [
      .set .i32 4 (.lit .i32 0),
      .loop (.bin .lt (.var 4) (.var 8)) [
        .stByte .u8 (.var 7) (.var 4) (.lit .i32 255)] [
        .set .i32 4 (.bin .add (.var 4) (.lit .i32 1))]] [],
    .ite (.not (.bin .eq (.call .sml_number_endian []) (.lit .i32 1))) [
      .expr (.call .sml_number_byte_swap [.var 7, .var 2])] [],
    .expr (.call .sml_buf_update_bytes_read [.var 0, .var 3]),
    .ret (.var 7)]

/-- `sml_number_write` (sml/src/sml_number.c:131-145).
```
void sml_number_write(void *np, unsigned char type, int size, sml_buffer *buf) {
  if (np == 0) {
    sml_buf_optional_write(buf);
    return;
  }

  sml_buf_set_type_and_length(buf, type, size);
  memcpy(sml_buf_get_current_buf(buf), np, size);

  if (!(sml_number_endian() == SML_BIG_ENDIAN)) {
    sml_number_byte_swap(sml_buf_get_current_buf(buf), size);
  }

  sml_buf_update_bytes_read(buf, size);
}
```
Variables: 0 `np`, 1 `type`, 2 `size`, 3 `buf`. -/
def sml_number_write : FunDef where
  params := [none, some .u8, some .i32, none]
  res := none
  body := [
    .ite (.bin .eq (.var 0) .null) [
      .expr (.call .sml_buf_optional_write [.var 3]),
      .retVoid] [],
    .expr (.call .sml_buf_set_type_and_length [.var 3, .var 1, .var 2]),
    .memcpy (.call .sml_buf_get_current_buf [.var 3]) (.var 0) (.var 2),
    .ite (.not (.bin .eq (.call .sml_number_endian []) (.lit .i32 1))) [
      .expr (.call .sml_number_byte_swap [.call .sml_buf_get_current_buf [.var 3], .var 2])] [],
    .expr (.call .sml_buf_update_bytes_read [.var 3, .var 2])]

/-- `sml_number_free` (sml/src/sml_number.c:147-151).
```
void sml_number_free(void *np) {
  if (np) {
    free(np);
  }
}
```
Variables: 0 `np`. -/
def sml_number_free : FunDef where
  params := [none]
  res := none
  body := [
    .ite (.var 0) [
      .free (.var 0)] []]

end Sml.C
