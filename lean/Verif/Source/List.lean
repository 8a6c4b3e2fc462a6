import Verif.Source.Lang

/-!
# `sml/src/sml_list.c`

Written by `tools/c2lean.py`.
-/

namespace Sml.C

/-- `sml_sequence_init` (sml/src/sml_list.c:29-34).
```
sml_sequence *sml_sequence_init(void (*elem_free)(void *elem)) {
  sml_sequence *seq = (sml_sequence *)malloc(sizeof(sml_sequence));
  *seq = (sml_sequence){.elems = NULL, .elems_len = 0, .elem_free = elem_free};

  return seq;
}
```
Variables: 0 `elem_free`, 1 `seq`. -/
def sml_sequence_init : FunDef where
  params := [none]
  res := none
  body := [
    .setPtr 1 (.mallocRec 1 2),
    .stRec (.var 1) [.null] [(.i32, .lit .i32 0), (.u64, .var 0)],
    .ret (.var 1)]

/-- `sml_sequence_parse` (sml/src/sml_list.c:36-60).
```
sml_sequence *sml_sequence_parse(sml_buffer *buf, void *(*elem_parse)(sml_buffer *buf),
                 void (*elem_free)(void *elem)) {
  if (sml_buf_get_next_type(buf) != SML_TYPE_LIST) {
    goto error;
  }

  sml_sequence *seq = sml_sequence_init(elem_free);
  int i, len = sml_buf_get_next_length(buf);
  void *p;
  for (i = 0; i < len; i++) {
    p = elem_parse(buf);
    if (sml_buf_has_errors(buf)) {
      goto haserrors;
    }
    sml_sequence_add(seq, p);
  }

  return seq;

haserrors:
  sml_sequence_free(seq);
error:
  buf->error = 1;
  return NULL;
}
```
Variables: 0 `buf`, 1 `elem_parse`, 2 `elem_free`, 3 `seq`, 4 `i`, 5 `len`, 6 `p`. Labels: 0 `error`, 1 `haserrors`. -/
def sml_sequence_parse : FunDef where
  params := [none, none, none]
  res := none
  body := [
    .ite (.bin .ne (.call .sml_buf_get_next_type [.var 0]) (.lit .i32 112)) [
      .goto 0] [],
    .setPtr 3 (.call .sml_sequence_init [.var 2]),
    .set .i32 5 (.call .sml_buf_get_next_length [.var 0]),
    .set .i32 4 (.lit .i32 0),
    .loop (.bin .lt (.var 4) (.var 5)) [
      .setPtr 6 (.callPtr (.var 1) [.var 0]),
      .ite (.call .sml_buf_has_errors [.var 0]) [
        .goto 1] [],
      .expr (.call .sml_sequence_add [.var 3, .var 6])] [
      .set .i32 4 (.bin .add (.var 4) (.lit .i32 1))],
    .ret (.var 3),
    .label 1,
    .expr (.call .sml_sequence_free [.var 3]),
    .label 0,
    .stInt .i32 (.var 0) 2 (.lit .i32 1),
    .ret .null]

/-- `sml_sequence_write` (sml/src/sml_list.c:62-75).
```
void sml_sequence_write(sml_sequence *seq, sml_buffer *buf,
            void (*elem_write)(void *elem, sml_buffer *buf)) {
  if (seq == 0) {
    sml_buf_optional_write(buf);
    return;
  }

  sml_buf_set_type_and_length(buf, SML_TYPE_LIST, seq->elems_len);

  int i;
  for (i = 0; i < seq->elems_len; i++) {
    elem_write((seq->elems)[i], buf);
  }
}
```
Variables: 0 `seq`, 1 `buf`, 2 `elem_write`, 3 `i`. -/
def sml_sequence_write : FunDef where
  params := [none, none, none]
  res := none
  body := [
    .ite (.bin .eq (.var 0) .null) [
      .expr (.call .sml_buf_optional_write [.var 1]),
      .retVoid] [],
    .expr (.call .sml_buf_set_type_and_length [.var 1, .lit .i32 112, .ldInt .i32 (.var 0) 0]),
    .set .i32 3 (.lit .i32 0),
    .loop (.bin .lt (.var 3) (.ldInt .i32 (.var 0) 0)) [
      .expr (.callPtr (.var 2) [.elem (.ldPtr (.var 0) 0) (.var 3), .var 1])] [
      .set .i32 3 (.bin .add (.var 3) (.lit .i32 1))]]

/-- `sml_sequence_free` (sml/src/sml_list.c:77-90).
```
void sml_sequence_free(sml_sequence *seq) {
  if (seq) {
    int i;
    for (i = 0; i < seq->elems_len; i++) {
      seq->elem_free((seq->elems)[i]);
    }

    if (seq->elems != 0) {
      free(seq->elems);
    }

    free(seq);
  }
}
```
Variables: 0 `seq`, 1 `i`. -/
def sml_sequence_free : FunDef where
  params := [none]
  res := none
  body := [
    .ite (.var 0) [
      .set .i32 1 (.lit .i32 0),
      .loop (.bin .lt (.var 1) (.ldInt .i32 (.var 0) 0)) [
        .expr (.callPtr (.ldFn (.var 0) 1) [.elem (.ldPtr (.var 0) 0) (.var 1)])] [
        .set .i32 1 (.bin .add (.var 1) (.lit .i32 1))],
      .ite (.bin .ne (.ldPtr (.var 0) 0) .null) [
        .free (.ldPtr (.var 0) 0)] [],
      .free (.var 0)] []]

/-- `sml_sequence_add` (sml/src/sml_list.c:92-96).
```
void sml_sequence_add(sml_sequence *seq, void *new_entry) {
  seq->elems_len++;
  seq->elems = (void **)realloc(seq->elems, sizeof(void *) * seq->elems_len);
  seq->elems[seq->elems_len - 1] = new_entry;
}
```
Variables: 0 `seq`, 1 `new_entry`. -/
def sml_sequence_add : FunDef where
  params := [none, none]
  res := none
  body := [
    .stInt .i32 (.var 0) 0 (.bin .add (.ldInt .i32 (.var 0) 0) (.lit .i32 1)),
    .stPtr (.var 0) 0 (.realloc (.ldPtr (.var 0) 0) (.bin .mul (.lit .u64 8) (.ldInt .i32 (.var 0) 0))),
    .stElem (.ldPtr (.var 0) 0) (.bin .sub (.ldInt .i32 (.var 0) 0) (.lit .i32 1)) (.var 1)]

/-- `sml_list_init` (sml/src/sml_list.c:100-111).
```
sml_list *sml_list_init() {
  sml_list *s = (sml_list *)malloc(sizeof(sml_list));
  *s = (sml_list){.obj_name = NULL,
          .status = NULL,
          .val_time = NULL,
          .unit = NULL,
          .scaler = NULL,
          .value = NULL,
          .value_signature = NULL,
          .next = NULL};
  return s;
}
```
Variables: 0 `s`. -/
def sml_list_init : FunDef where
  params := []
  res := none
  body := [
    .setPtr 0 (.mallocRec 8 0),
    .stRec (.var 0) [.null, .null, .null, .null, .null, .null, .null, .null] [],
    .ret (.var 0)]

/-- `sml_list_add` (sml/src/sml_list.c:113).
```
void sml_list_add(sml_list *list, sml_list *new_entry) { list->next = new_entry; }
```
Variables: 0 `list`, 1 `new_entry`. -/
def sml_list_add : FunDef where
  params := [none, none]
  res := none
  body := [
    .stPtr (.var 0) 7 (.var 1)]

/-- `detect_buggy_dzg_dvs74` (sml/src/sml_list.c:116-166).
```
static bool detect_buggy_dzg_dvs74(sml_list *l)
{
#define DZG_SERIAL_LENGTH  10
  static const unsigned char dzg_serial_oid[] = {1, 0, 96, 1, 0, 255};
  static const unsigned char dzg_serial_start[] = { 0x0a, 0x01, 'D', 'Z', 'G' };
  static const struct {
    uint64_t start, end;
  } broken_dvs74_ranges[] = {
    { .start = 42000000, .end = 48999999 },
    { .start = 55000000, .end = 58999999 },
  };
#define NUM_BROKEN_RANGES (sizeof(broken_dvs74_ranges)/sizeof(broken_dvs74_ranges[0]))
  const unsigned char *val;
  uint64_t serial = 0;
  unsigned int i;

  /* check that object ID is for the serial number */
  if (!l->obj_name || l->obj_name->len != sizeof(dzg_serial_oid) ||
      memcmp(l->obj_name->str, dzg_serial_oid, sizeof(dzg_serial_oid)))
    return false;

  /* check that it's an octet string of the right length */
  if (!l->value || l->value->type != SML_TYPE_OCTET_STRING ||
      l->value->data.bytes->len != DZG_SERIAL_LENGTH)
    return false;

  val = l->value->data.bytes->str;

  /* check that it's a DZG meter at all */
  if (memcmp(val, dzg_serial_start, sizeof(dzg_serial_start)))
    return false;

  /* convert remainder of serial number to integer */
  for (i = sizeof(dzg_serial_start); i < DZG_SERIAL_LENGTH; i++) {
    serial <<= 8;
    serial |= val[i];
  }

  /*
   * Check that it's in one of the affected ranges,
   * which means it's a DVS74 with the bug
   * (DVS74 with serial >= 60000000 have the bug fixed)
   */
  for (i = 0; i < NUM_BROKEN_RANGES; i++) {
    if (serial >= broken_dvs74_ranges[i].start &&
        serial <= broken_dvs74_ranges[i].end)
      return true;
  }

  return false;
}
```
Variables: 0 `l`, 1 `val`, 2 `serial`, 3 `i`. -/
def detect_buggy_dzg_dvs74 : FunDef where
  params := [none]
  res := some .bool
  body := [
    .set .u64 2 (.lit .i32 0),
    .ite (.or (.or (.not (.ldPtr (.var 0) 0)) (.bin .ne (.ldInt .i32 (.ldPtr (.var 0) 0) 0) (.lit .u64 6))) (.memcmpTab (.ldPtr (.ldPtr (.var 0) 0) 0) [1, 0, 96, 1, 0, 255] (.lit .u64 6))) [
      .ret (.lit .i32 0)] [],
    .ite (.or (.or (.not (.ldPtr (.var 0) 5)) (.bin .ne (.ldInt .u8 (.ldPtr (.var 0) 5) 0) (.lit .i32 0))) (.bin .ne (.ldInt .i32 (.ldPtr (.ldPtr (.var 0) 5) 0) 0) (.lit .i32 10))) [
      .ret (.lit .i32 0)] [],
    .setPtr 1 (.ldPtr (.ldPtr (.ldPtr (.var 0) 5) 0) 0),
    .ite (.memcmpTab (.var 1) [10, 1, 68, 90, 71] (.lit .u64 5)) [
      .ret (.lit .i32 0)] [],
    .set .u32 3 (.lit .u64 5),
    .loop (.bin .lt (.var 3) (.lit .i32 10)) [
      .set .u64 2 (.bin .shl (.var 2) (.lit .i32 8)),
      .set .u64 2 (.bin .bor (.var 2) (.byte .u8 (.var 1) (.var 3)))] [
      .set .u32 3 (.bin .add (.var 3) (.lit .i32 1))],
    .set .u32 3 (.lit .i32 0),
    .loop (.bin .lt (.var 3) (.lit .u64 2)) [
      .ite (.and (.bin .ge (.var 2) (.tab .u64 [42000000, 55000000] (.var 3))) (.bin .le (.var 2) (.tab .u64 [48999999, 58999999] (.var 3)))) [
        .ret (.lit .i32 1)] []] [
      .set .u32 3 (.bin .add (.var 3) (.lit .i32 1))],
    .ret (.lit .i32 0)]

/-- `sml_list_entry_parse` (sml/src/sml_list.c:172-267).
```
sml_list *sml_list_entry_parse(sml_buffer *buf, struct workarounds *workarounds) {
  static const unsigned char dzg_power_name[] = {1, 0, 16, 7, 0, 255};
  u8 value_tl, value_len_more;
  sml_list *l = NULL;

  if (sml_buf_get_next_type(buf) != SML_TYPE_LIST) {
    buf->error = 1;
    goto error;
  }

  if (sml_buf_get_next_length(buf) != 7) {
    buf->error = 1;
    goto error;
  }
  l = sml_list_init();

  l->obj_name = sml_octet_string_parse(buf);
  if (sml_buf_has_errors(buf))
    goto error;

  l->status = sml_status_parse(buf);
  if (sml_buf_has_errors(buf))
    goto error;

  l->val_time = sml_time_parse(buf);
  if (sml_buf_has_errors(buf))
    goto error;

  l->unit = sml_u8_parse(buf);
  if (sml_buf_has_errors(buf))
    goto error;

  l->scaler = sml_i8_parse(buf);
  if (sml_buf_has_errors(buf))
    goto error;

  if (buf->cursor >= buf->buffer_len) {
    goto error;
  }

  value_tl = sml_buf_get_current_byte(buf);
  value_len_more = value_tl & (SML_ANOTHER_TL | SML_LENGTH_FIELD);
  l->value = sml_value_parse(buf);
  if (sml_buf_has_errors(buf))
    goto error;

  l->value_signature = sml_octet_string_parse(buf);
  if (sml_buf_has_errors(buf))
    goto error;

  /*
   * Work around DZG DVS74 meters in the serial number ranges listed
   * in detect_buggy_dzg_dvs74() above - they encode the consumption
   * incorrectly:
   * The value uses a scaler of -2, so e.g. 328.05 should be
   * encoded as an unsigned int with 2 bytes (called Unsigned16 in the standard):
   *   63 80 25 (0x8025 == 32805 corresponds to 328.05W)
   * or as an unsigned int with 3 bytes (not named in the standard):
   *   64 00 80 25
   * or as a signed int with 3 bytes (not named in the standard):
   *   54 00 80 25
   * but they encode it as a signed int with 2 bytes (called Integer16 in the standard):
   *   53 80 25
   * which reads as -32731 corresponding to -327.31W.
   *
   * Luckily, it doesn't attempt to do any compression on
   * negative values, they're always encoded as, e.g.
   *   55 ff fe 13 93 (== -126061 -> -1260.61W)
   *
   * Since we cannot have positive values >= 0x80000000
   * (that would be 21474836.48 W, yes, >21MW), we can
   * assume that for 1, 2, 3 bytes, if they look signed,
   * they really were intended to be unsigned.
   *
   * Note that this will NOT work if a meter outputs negative
   * values compressed as well - but mine doesn't.
   */
  if (detect_buggy_dzg_dvs74(l)) {
    workarounds->old_dzg_dvs74 = 1;
  } else if (workarounds->old_dzg_dvs74 && l->obj_name &&
         l->obj_name->len == sizeof(dzg_power_name) &&
         memcmp(l->obj_name->str, dzg_power_name, sizeof(dzg_power_name)) == 0 && l->value &&
         (value_len_more == 1 || value_len_more == 2 || value_len_more == 3)) {
    l->value->type &= ~SML_TYPE_FIELD;
    l->value->type |= SML_TYPE_UNSIGNED;
  }

  return l;

error:
  buf->error = 1;
  if (l) {
    sml_list_free(l);
  }
  return NULL;
}
```
Variables: 0 `buf`, 1 `workarounds`, 2 `value_tl`, 3 `value_len_more`, 4 `l`. Labels: 0 `error`. -/
def sml_list_entry_parse : FunDef where
  params := [none, none]
  res := none
  body := [
    .setPtr 4 .null,
    .ite (.bin .ne (.call .sml_buf_get_next_type [.var 0]) (.lit .i32 112)) [
      .stInt .i32 (.var 0) 2 (.lit .i32 1),
      .goto 0] [],
    .ite (.bin .ne (.call .sml_buf_get_next_length [.var 0]) (.lit .i32 7)) [
      .stInt .i32 (.var 0) 2 (.lit .i32 1),
      .goto 0] [],
    .setPtr 4 (.call .sml_list_init []),
    .stPtr (.var 4) 0 (.call .sml_octet_string_parse [.var 0]),
    .ite (.call .sml_buf_has_errors [.var 0]) [
      .goto 0] [],
    .stPtr (.var 4) 1 (.call .sml_status_parse [.var 0]),
    .ite (.call .sml_buf_has_errors [.var 0]) [
      .goto 0] [],
    .stPtr (.var 4) 2 (.call .sml_time_parse [.var 0]),
    .ite (.call .sml_buf_has_errors [.var 0]) [
      .goto 0] [],
    .stPtr (.var 4) 3 (.call .sml_number_parse [.var 0, .lit .i32 96, .lit .u64 1]),
    .ite (.call .sml_buf_has_errors [.var 0]) [
      .goto 0] [],
    .stPtr (.var 4) 4 (.call .sml_number_parse [.var 0, .lit .i32 80, .lit .u64 1]),
    .ite (.call .sml_buf_has_errors [.var 0]) [
      .goto 0] [],
    .ite (.bin .ge (.ldInt .u64 (.var 0) 1) (.ldInt .u64 (.var 0) 0)) [
      .goto 0] [],
    .set .u8 2 (.call .sml_buf_get_current_byte [.var 0]),
    .set .u8 3 (.bin .band (.var 2) (.lit .i32 143)),
    .stPtr (.var 4) 5 (.call .sml_value_parse [.var 0]),
    .ite (.call .sml_buf_has_errors [.var 0]) [
      .goto 0] [],
    .stPtr (.var 4) 6 (.call .sml_octet_string_parse [.var 0]),
    .ite (.call .sml_buf_has_errors [.var 0]) [
      .goto 0] [],
    .ite (.call .detect_buggy_dzg_dvs74 [.var 4]) [
      .stInt .bit (.var 1) 0 (.lit .i32 1)] [
      .ite (.and (.and (.and (.and (.and (.ldInt .bit (.var 1) 0) (.ldPtr (.var 4) 0)) (.bin .eq (.ldInt .i32 (.ldPtr (.var 4) 0) 0) (.lit .u64 6))) (.bin .eq (.memcmpTab (.ldPtr (.ldPtr (.var 4) 0) 0) [1, 0, 16, 7, 0, 255] (.lit .u64 6)) (.lit .i32 0))) (.ldPtr (.var 4) 5)) (.or (.or (.bin .eq (.var 3) (.lit .i32 1)) (.bin .eq (.var 3) (.lit .i32 2))) (.bin .eq (.var 3) (.lit .i32 3)))) [
        .stInt .u8 (.ldPtr (.var 4) 5) 0 (.bin .band (.ldInt .u8 (.ldPtr (.var 4) 5) 0) (.lit .i32 (-113))),
        .stInt .u8 (.ldPtr (.var 4) 5) 0 (.bin .bor (.ldInt .u8 (.ldPtr (.var 4) 5) 0) (.lit .i32 96))] []],
    .ret (.var 4),
    .label 0,
    .stInt .i32 (.var 0) 2 (.lit .i32 1),
    .ite (.var 4) [
      .expr (.call .sml_list_free [.var 4])] [],
    .ret .null]

/-- `sml_list_parse` (sml/src/sml_list.c:269-299).
```
sml_list *sml_list_parse(sml_buffer *buf) {
  struct workarounds workarounds = {0};
  sml_list *ret = NULL, **pos = &ret;
  int elems;

  if (sml_buf_optional_is_skipped(buf)) {
    return NULL;
  }

  if (sml_buf_get_next_type(buf) != SML_TYPE_LIST) {
    buf->error = 1;
    return NULL;
  }

  elems = sml_buf_get_next_length(buf);

  while (elems > 0) {
    *pos = sml_list_entry_parse(buf, &workarounds);
    if (sml_buf_has_errors(buf))
      goto error;
    pos = &(*pos)->next;
    elems--;
  }

  return ret;

error:
  buf->error = 1;
  sml_list_free(ret);
  return NULL;
}
```
Variables: 0 `buf`, 1 `workarounds`, 2 `ret`, 3 `pos`, 4 `elems`. Labels: 0 `error`. -/
def sml_list_parse : FunDef where
  params := [none]
  res := none
  body := [
    .obj 1 [] [0],
    .obj 2 [.null] [],
    .setPtr 3 (.var 2),
    .ite (.call .sml_buf_optional_is_skipped [.var 0]) [
      .ret .null] [],
    .ite (.bin .ne (.call .sml_buf_get_next_type [.var 0]) (.lit .i32 112)) [
      .stInt .i32 (.var 0) 2 (.lit .i32 1),
      .ret .null] [],
    .set .i32 4 (.call .sml_buf_get_next_length [.var 0]),
    .loop (.bin .gt (.var 4) (.lit .i32 0)) [
      .stPtr (.var 3) 0 (.call .sml_list_entry_parse [.var 0, .var 1]),
      .ite (.call .sml_buf_has_errors [.var 0]) [
        .goto 0] [],
      .setPtr 3 (.addrPtr (.ldPtr (.var 3) 0) 7),
      .set .i32 4 (.bin .sub (.var 4) (.lit .i32 1))] [],
    .ret (.ldPtr (.var 2) 0),
    .label 0,
    .stInt .i32 (.var 0) 2 (.lit .i32 1),
    .expr (.call .sml_list_free [.ldPtr (.var 2) 0]),
    .ret .null]

/-- `sml_list_entry_write` (sml/src/sml_list.c:301-310).
```
void sml_list_entry_write(sml_list *list, sml_buffer *buf) {
  sml_buf_set_type_and_length(buf, SML_TYPE_LIST, 7);
  sml_octet_string_write(list->obj_name, buf);
  sml_status_write(list->status, buf);
  sml_time_write(list->val_time, buf);
  sml_u8_write(list->unit, buf);
  sml_i8_write(list->scaler, buf);
  sml_value_write(list->value, buf);
  sml_octet_string_write(list->value_signature, buf);
}
```
Variables: 0 `list`, 1 `buf`. -/
def sml_list_entry_write : FunDef where
  params := [none, none]
  res := none
  body := [
    .expr (.call .sml_buf_set_type_and_length [.var 1, .lit .i32 112, .lit .i32 7]),
    .expr (.call .sml_octet_string_write [.ldPtr (.var 0) 0, .var 1]),
    .expr (.call .sml_status_write [.ldPtr (.var 0) 1, .var 1]),
    .expr (.call .sml_time_write [.ldPtr (.var 0) 2, .var 1]),
    .expr (.call .sml_number_write [.ldPtr (.var 0) 3, .lit .i32 96, .lit .u64 1, .var 1]),
    .expr (.call .sml_number_write [.ldPtr (.var 0) 4, .lit .i32 80, .lit .u64 1, .var 1]),
    .expr (.call .sml_value_write [.ldPtr (.var 0) 5, .var 1]),
    .expr (.call .sml_octet_string_write [.ldPtr (.var 0) 6, .var 1])]

/-- `sml_list_write` (sml/src/sml_list.c:312-332).
```
void sml_list_write(sml_list *list, sml_buffer *buf) {
  if (list == 0) {
    sml_buf_optional_write(buf);
    return;
  }

  sml_list *i = list;
  int len = 0;
  while (i) {
    i = i->next;
    len++;
  }

  sml_buf_set_type_and_length(buf, SML_TYPE_LIST, len);

  i = list;
  while (i) {
    sml_list_entry_write(i, buf);
    i = i->next;
  }
}
```
Variables: 0 `list`, 1 `buf`, 2 `i`, 3 `len`. -/
def sml_list_write : FunDef where
  params := [none, none]
  res := none
  body := [
    .ite (.bin .eq (.var 0) .null) [
      .expr (.call .sml_buf_optional_write [.var 1]),
      .retVoid] [],
    .setPtr 2 (.var 0),
    .set .i32 3 (.lit .i32 0),
    .loop (.var 2) [
      .setPtr 2 (.ldPtr (.var 2) 7),
      .set .i32 3 (.bin .add (.var 3) (.lit .i32 1))] [],
    .expr (.call .sml_buf_set_type_and_length [.var 1, .lit .i32 112, .var 3]),
    .setPtr 2 (.var 0),
    .loop (.var 2) [
      .expr (.call .sml_list_entry_write [.var 2, .var 1]),
      .setPtr 2 (.ldPtr (.var 2) 7)] []]

/-- `sml_list_entry_free` (sml/src/sml_list.c:334-346).
```
void sml_list_entry_free(sml_list *list) {
  if (list) {
    sml_octet_string_free(list->obj_name);
    sml_status_free(list->status);
    sml_time_free(list->val_time);
    sml_number_free(list->unit);
    sml_number_free(list->scaler);
    sml_value_free(list->value);
    sml_octet_string_free(list->value_signature);

    free(list);
  }
}
```
Variables: 0 `list`. -/
def sml_list_entry_free : FunDef where
  params := [none]
  res := none
  body := [
    .ite (.var 0) [
      .expr (.call .sml_octet_string_free [.ldPtr (.var 0) 0]),
      .expr (.call .sml_status_free [.ldPtr (.var 0) 1]),
      .expr (.call .sml_time_free [.ldPtr (.var 0) 2]),
      .expr (.call .sml_number_free [.ldPtr (.var 0) 3]),
      .expr (.call .sml_number_free [.ldPtr (.var 0) 4]),
      .expr (.call .sml_value_free [.ldPtr (.var 0) 5]),
      .expr (.call .sml_octet_string_free [.ldPtr (.var 0) 6]),
      .free (.var 0)] []]

/-- `sml_list_free` (sml/src/sml_list.c:348-361).
```
void sml_list_free(sml_list *list) {
  if (list) {
    sml_list *f = list;
    sml_list *n = list->next;

    while (f) {
      sml_list_entry_free(f);
      f = n;
      if (f) {
        n = f->next;
      }
    }
  }
}
```
Variables: 0 `list`, 1 `f`, 2 `n`. -/
def sml_list_free : FunDef where
  params := [none]
  res := none
  body := [
    .ite (.var 0) [
      .setPtr 1 (.var 0),
      .setPtr 2 (.ldPtr (.var 0) 7),
      .loop (.var 1) [
        .expr (.call .sml_list_entry_free [.var 1]),
        .setPtr 1 (.var 2),
        .ite (.var 1) [
          .setPtr 2 (.ldPtr (.var 1) 7)] []] []] []]

end Sml.C
