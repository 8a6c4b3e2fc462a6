import Verif.Source.Lang

/-!
# `sml/src/sml_get_profile_pack_response.c`

Written by `tools/c2lean.py`.
-/

namespace Sml.C

/-- `sml_prof_obj_header_entry_free_` (sml/src/sml_get_profile_pack_response.c:27-36).
```
static void sml_prof_obj_header_entry_free_(void *p) {
  sml_prof_obj_header_entry *entry = p;
  if (entry) {
    sml_octet_string_free(entry->obj_name);
    sml_unit_free(entry->unit);
    sml_number_free(entry->scaler);

    free(entry);
  }
}
```
Variables: 0 `p`, 1 `entry`. -/
def sml_prof_obj_header_entry_free_ : FunDef where
  params := [none]
  res := none
  body := [
    .setPtr 1 (.var 0),
    .ite (.var 1) [
      .expr (.call .sml_octet_string_free [.ldPtr (.var 1) 0]),
      .expr (.call .sml_number_free [.ldPtr (.var 1) 1]),
      .expr (.call .sml_number_free [.ldPtr (.var 1) 2]),
      .free (.var 1)] []]

/-- `sml_prof_obj_period_entry_parse_` (sml/src/sml_get_profile_pack_response.c:38-70).
```
static void *sml_prof_obj_period_entry_parse_(sml_buffer *buf) {
  sml_prof_obj_period_entry *entry = sml_prof_obj_period_entry_init();

  if (sml_buf_get_next_type(buf) != SML_TYPE_LIST) {
    buf->error = 1;
    goto error;
  }

  if (sml_buf_get_next_length(buf) != 4) {
    buf->error = 1;
    goto error;
  }

  entry->val_time = sml_time_parse(buf);
  if (sml_buf_has_errors(buf))
    goto error;
  entry->status = sml_u64_parse(buf);
  if (sml_buf_has_errors(buf))
    goto error;
  entry->value_list = sml_sequence_parse(buf, sml_value_entry_parse_, sml_value_entry_free_);
  if (sml_buf_has_errors(buf))
    goto error;
  entry->period_signature = sml_signature_parse(buf);
  if (sml_buf_has_errors(buf))
    goto error;

  return entry;

error:
  buf->error = 1;
  sml_prof_obj_period_entry_free(entry);
  return NULL;
}
```
Variables: 0 `buf`, 1 `entry`. Labels: 0 `error`. -/
def sml_prof_obj_period_entry_parse_ : FunDef where
  params := [none]
  res := none
  body := [
    .setPtr 1 (.call .sml_prof_obj_period_entry_init []),
    .ite (.bin .ne (.call .sml_buf_get_next_type [.var 0]) (.lit .i32 112)) [
      .stInt .i32 (.var 0) 2 (.lit .i32 1),
      .goto 0] [],
    .ite (.bin .ne (.call .sml_buf_get_next_length [.var 0]) (.lit .i32 4)) [
      .stInt .i32 (.var 0) 2 (.lit .i32 1),
      .goto 0] [],
    .stPtr (.var 1) 0 (.call .sml_time_parse [.var 0]),
    .ite (.call .sml_buf_has_errors [.var 0]) [
      .goto 0] [],
    .stPtr (.var 1) 1 (.call .sml_number_parse [.var 0, .lit .i32 96, .lit .u64 8]),
    .ite (.call .sml_buf_has_errors [.var 0]) [
      .goto 0] [],
    .stPtr (.var 1) 2 (.call .sml_sequence_parse [.var 0, .fn .sml_value_entry_parse_, .fn .sml_value_entry_free_]),
    .ite (.call .sml_buf_has_errors [.var 0]) [
      .goto 0] [],
    .stPtr (.var 1) 3 (.call .sml_octet_string_parse [.var 0]),
    .ite (.call .sml_buf_has_errors [.var 0]) [
      .goto 0] [],
    .ret (.var 1),
    .label 0,
    .stInt .i32 (.var 0) 2 (.lit .i32 1),
    .expr (.call .sml_prof_obj_period_entry_free [.var 1]),
    .ret .null]

/-- `sml_prof_obj_period_entry_free_` (sml/src/sml_get_profile_pack_response.c:72-83).
```
static void sml_prof_obj_period_entry_free_(void *p) {
  sml_prof_obj_period_entry *entry = p;

  if (entry) {
    sml_time_free(entry->val_time);
    sml_number_free(entry->status);
    sml_sequence_free(entry->value_list);
    sml_signature_free(entry->period_signature);

    free(entry);
  }
}
```
Variables: 0 `p`, 1 `entry`. -/
def sml_prof_obj_period_entry_free_ : FunDef where
  params := [none]
  res := none
  body := [
    .setPtr 1 (.var 0),
    .ite (.var 1) [
      .expr (.call .sml_time_free [.ldPtr (.var 1) 0]),
      .expr (.call .sml_number_free [.ldPtr (.var 1) 1]),
      .expr (.call .sml_sequence_free [.ldPtr (.var 1) 2]),
      .expr (.call .sml_octet_string_free [.ldPtr (.var 1) 3]),
      .free (.var 1)] []]

/-- `sml_prof_obj_header_entry_write_` (sml/src/sml_get_profile_pack_response.c:85-93).
```
static void sml_prof_obj_header_entry_write_(void *p, sml_buffer *buf) {
  sml_prof_obj_header_entry *entry = p;

  sml_buf_set_type_and_length(buf, SML_TYPE_LIST, 3);

  sml_octet_string_write(entry->obj_name, buf);
  sml_unit_write(entry->unit, buf);
  sml_i8_write(entry->scaler, buf);
}
```
Variables: 0 `p`, 1 `buf`, 2 `entry`. -/
def sml_prof_obj_header_entry_write_ : FunDef where
  params := [none, none]
  res := none
  body := [
    .setPtr 2 (.var 0),
    .expr (.call .sml_buf_set_type_and_length [.var 1, .lit .i32 112, .lit .i32 3]),
    .expr (.call .sml_octet_string_write [.ldPtr (.var 2) 0, .var 1]),
    .expr (.call .sml_number_write [.ldPtr (.var 2) 1, .lit .i32 96, .lit .u64 1, .var 1]),
    .expr (.call .sml_number_write [.ldPtr (.var 2) 2, .lit .i32 80, .lit .u64 1, .var 1])]

/-- `sml_prof_obj_period_entry_write_` (sml/src/sml_get_profile_pack_response.c:95-103).
```
static void sml_prof_obj_period_entry_write_(void *p, sml_buffer *buf) {
  sml_prof_obj_period_entry *entry = p;

  sml_buf_set_type_and_length(buf, SML_TYPE_LIST, 4);
  sml_time_write(entry->val_time, buf);
  sml_u64_write(entry->status, buf);
  sml_sequence_write(entry->value_list, buf, sml_value_entry_write_);
  sml_signature_write(entry->period_signature, buf);
}
```
Variables: 0 `p`, 1 `buf`, 2 `entry`. -/
def sml_prof_obj_period_entry_write_ : FunDef where
  params := [none, none]
  res := none
  body := [
    .setPtr 2 (.var 0),
    .expr (.call .sml_buf_set_type_and_length [.var 1, .lit .i32 112, .lit .i32 4]),
    .expr (.call .sml_time_write [.ldPtr (.var 2) 0, .var 1]),
    .expr (.call .sml_number_write [.ldPtr (.var 2) 1, .lit .i32 96, .lit .u64 8, .var 1]),
    .expr (.call .sml_sequence_write [.ldPtr (.var 2) 2, .var 1, .fn .sml_value_entry_write_]),
    .expr (.call .sml_octet_string_write [.ldPtr (.var 2) 3, .var 1])]

/-- `sml_value_entry_parse_` (sml/src/sml_get_profile_pack_response.c:105-131).
```
static void *sml_value_entry_parse_(sml_buffer *buf) {
  sml_value_entry *entry = sml_value_entry_init();

  if (sml_buf_get_next_type(buf) != SML_TYPE_LIST) {
    buf->error = 1;
    goto error;
  }

  if (sml_buf_get_next_length(buf) != 2) {
    buf->error = 1;
    goto error;
  }

  entry->value = sml_value_parse(buf);
  if (sml_buf_has_errors(buf))
    goto error;
  entry->value_signature = sml_signature_parse(buf);
  if (sml_buf_has_errors(buf))
    goto error;

  return entry;

error:
  buf->error = 1;
  sml_value_entry_free(entry);
  return NULL;
}
```
Variables: 0 `buf`, 1 `entry`. Labels: 0 `error`. -/
def sml_value_entry_parse_ : FunDef where
  params := [none]
  res := none
  body := [
    .setPtr 1 (.call .sml_value_entry_init []),
    .ite (.bin .ne (.call .sml_buf_get_next_type [.var 0]) (.lit .i32 112)) [
      .stInt .i32 (.var 0) 2 (.lit .i32 1),
      .goto 0] [],
    .ite (.bin .ne (.call .sml_buf_get_next_length [.var 0]) (.lit .i32 2)) [
      .stInt .i32 (.var 0) 2 (.lit .i32 1),
      .goto 0] [],
    .stPtr (.var 1) 0 (.call .sml_value_parse [.var 0]),
    .ite (.call .sml_buf_has_errors [.var 0]) [
      .goto 0] [],
    .stPtr (.var 1) 1 (.call .sml_octet_string_parse [.var 0]),
    .ite (.call .sml_buf_has_errors [.var 0]) [
      .goto 0] [],
    .ret (.var 1),
    .label 0,
    .stInt .i32 (.var 0) 2 (.lit .i32 1),
    .expr (.call .sml_value_entry_free [.var 1]),
    .ret .null]

/-- `sml_value_entry_write_` (sml/src/sml_get_profile_pack_response.c:133-139).
```
static void sml_value_entry_write_(void *p, sml_buffer *buf) {
  sml_value_entry *entry = p;

  sml_buf_set_type_and_length(buf, SML_TYPE_LIST, 2);
  sml_value_write(entry->value, buf);
  sml_signature_write(entry->value_signature, buf);
}
```
Variables: 0 `p`, 1 `buf`, 2 `entry`. -/
def sml_value_entry_write_ : FunDef where
  params := [none, none]
  res := none
  body := [
    .setPtr 2 (.var 0),
    .expr (.call .sml_buf_set_type_and_length [.var 1, .lit .i32 112, .lit .i32 2]),
    .expr (.call .sml_value_write [.ldPtr (.var 2) 0, .var 1]),
    .expr (.call .sml_octet_string_write [.ldPtr (.var 2) 1, .var 1])]

/-- `sml_value_entry_free_` (sml/src/sml_get_profile_pack_response.c:141-150).
```
static void sml_value_entry_free_(void *p) {
  sml_value_entry *entry = p;

  if (entry) {
    sml_value_free(entry->value);
    sml_signature_free(entry->value_signature);

    free(entry);
  }
}
```
Variables: 0 `p`, 1 `entry`. -/
def sml_value_entry_free_ : FunDef where
  params := [none]
  res := none
  body := [
    .setPtr 1 (.var 0),
    .ite (.var 1) [
      .expr (.call .sml_value_free [.ldPtr (.var 1) 0]),
      .expr (.call .sml_octet_string_free [.ldPtr (.var 1) 1]),
      .free (.var 1)] []]

/-- `sml_get_profile_pack_response_init` (sml/src/sml_get_profile_pack_response.c:154-167).
```
sml_get_profile_pack_response *sml_get_profile_pack_response_init() {
  sml_get_profile_pack_response *msg =
    (sml_get_profile_pack_response *)malloc(sizeof(sml_get_profile_pack_response));
  *msg = (sml_get_profile_pack_response){.server_id = NULL,
                       .act_time = NULL,
                       .reg_period = NULL,
                       .parameter_tree_path = NULL,
                       .header_list = NULL,
                       .period_list = NULL,
                       .rawdata = NULL,
                       .profile_signature = NULL};

  return msg;
}
```
Variables: 0 `msg`. -/
def sml_get_profile_pack_response_init : FunDef where
  params := []
  res := none
  body := [
    .setPtr 0 (.mallocRec 8 0),
    .stRec (.var 0) [.null, .null, .null, .null, .null, .null, .null, .null] [],
    .ret (.var 0)]

/-- `sml_get_profile_pack_response_parse` (sml/src/sml_get_profile_pack_response.c:169-222).
```
sml_get_profile_pack_response *sml_get_profile_pack_response_parse(sml_buffer *buf) {
  sml_get_profile_pack_response *msg = sml_get_profile_pack_response_init();

  if (sml_buf_get_next_type(buf) != SML_TYPE_LIST) {
    buf->error = 1;
    goto error;
  }

  if (sml_buf_get_next_length(buf) != 8) {
    buf->error = 1;
    goto error;
  }

  msg->server_id = sml_octet_string_parse(buf);
  if (sml_buf_has_errors(buf))
    goto error;

  msg->act_time = sml_time_parse(buf);
  if (sml_buf_has_errors(buf))
    goto error;

  msg->reg_period = sml_u32_parse(buf);
  if (sml_buf_has_errors(buf))
    goto error;

  msg->parameter_tree_path = sml_tree_path_parse(buf);
  if (sml_buf_has_errors(buf))
    goto error;

  msg->header_list =
    sml_sequence_parse(buf, sml_prof_obj_header_entry_parse_, sml_prof_obj_header_entry_free_);
  if (sml_buf_has_errors(buf))
    goto error;

  msg->period_list =
    sml_sequence_parse(buf, sml_prof_obj_period_entry_parse_, sml_prof_obj_period_entry_free_);
  if (sml_buf_has_errors(buf))
    goto error;

  msg->rawdata = sml_octet_string_parse(buf);
  if (sml_buf_has_errors(buf))
    goto error;

  msg->profile_signature = sml_signature_parse(buf);
  if (sml_buf_has_errors(buf))
    goto error;

  return msg;

error:
  buf->error = 1;
  sml_get_profile_pack_response_free(msg);
  return NULL;
}
```
Variables: 0 `buf`, 1 `msg`. Labels: 0 `error`. -/
def sml_get_profile_pack_response_parse : FunDef where
  params := [none]
  res := none
  body := [
    .setPtr 1 (.call .sml_get_profile_pack_response_init []),
    .ite (.bin .ne (.call .sml_buf_get_next_type [.var 0]) (.lit .i32 112)) [
      .stInt .i32 (.var 0) 2 (.lit .i32 1),
      .goto 0] [],
    .ite (.bin .ne (.call .sml_buf_get_next_length [.var 0]) (.lit .i32 8)) [
      .stInt .i32 (.var 0) 2 (.lit .i32 1),
      .goto 0] [],
    .stPtr (.var 1) 0 (.call .sml_octet_string_parse [.var 0]),
    .ite (.call .sml_buf_has_errors [.var 0]) [
      .goto 0] [],
    .stPtr (.var 1) 1 (.call .sml_time_parse [.var 0]),
    .ite (.call .sml_buf_has_errors [.var 0]) [
      .goto 0] [],
    .stPtr (.var 1) 2 (.call .sml_number_parse [.var 0, .lit .i32 96, .lit .u64 4]),
    .ite (.call .sml_buf_has_errors [.var 0]) [
      .goto 0] [],
    .stPtr (.var 1) 3 (.call .sml_tree_path_parse [.var 0]),
    .ite (.call .sml_buf_has_errors [.var 0]) [
      .goto 0] [],
    .stPtr (.var 1) 4 (.call .sml_sequence_parse [.var 0, .fn .sml_prof_obj_header_entry_parse_, .fn .sml_prof_obj_header_entry_free_]),
    .ite (.call .sml_buf_has_errors [.var 0]) [
      .goto 0] [],
    .stPtr (.var 1) 5 (.call .sml_sequence_parse [.var 0, .fn .sml_prof_obj_period_entry_parse_, .fn .sml_prof_obj_period_entry_free_]),
    .ite (.call .sml_buf_has_errors [.var 0]) [
      .goto 0] [],
    .stPtr (.var 1) 6 (.call .sml_octet_string_parse [.var 0]),
    .ite (.call .sml_buf_has_errors [.var 0]) [
      .goto 0] [],
    .stPtr (.var 1) 7 (.call .sml_octet_string_parse [.var 0]),
    .ite (.call .sml_buf_has_errors [.var 0]) [
      .goto 0] [],
    .ret (.var 1),
    .label 0,
    .stInt .i32 (.var 0) 2 (.lit .i32 1),
    .expr (.call .sml_get_profile_pack_response_free [.var 1]),
    .ret .null]

/-- `sml_get_profile_pack_response_write` (sml/src/sml_get_profile_pack_response.c:224-235).
```
void sml_get_profile_pack_response_write(sml_get_profile_pack_response *msg, sml_buffer *buf) {
  sml_buf_set_type_and_length(buf, SML_TYPE_LIST, 8);

  sml_octet_string_write(msg->server_id, buf);
  sml_time_write(msg->act_time, buf);
  sml_u32_write(msg->reg_period, buf);
  sml_tree_path_write(msg->parameter_tree_path, buf);
  sml_sequence_write(msg->header_list, buf, sml_prof_obj_header_entry_write_);
  sml_sequence_write(msg->period_list, buf, sml_prof_obj_period_entry_write_);
  sml_octet_string_write(msg->rawdata, buf);
  sml_signature_write(msg->profile_signature, buf);
}
```
Variables: 0 `msg`, 1 `buf`. -/
def sml_get_profile_pack_response_write : FunDef where
  params := [none, none]
  res := none
  body := [
    .expr (.call .sml_buf_set_type_and_length [.var 1, .lit .i32 112, .lit .i32 8]),
    .expr (.call .sml_octet_string_write [.ldPtr (.var 0) 0, .var 1]),
    .expr (.call .sml_time_write [.ldPtr (.var 0) 1, .var 1]),
    .expr (.call .sml_number_write [.ldPtr (.var 0) 2, .lit .i32 96, .lit .u64 4, .var 1]),
    .expr (.call .sml_tree_path_write [.ldPtr (.var 0) 3, .var 1]),
    .expr (.call .sml_sequence_write [.ldPtr (.var 0) 4, .var 1, .fn .sml_prof_obj_header_entry_write_]),
    .expr (.call .sml_sequence_write [.ldPtr (.var 0) 5, .var 1, .fn .sml_prof_obj_period_entry_write_]),
    .expr (.call .sml_octet_string_write [.ldPtr (.var 0) 6, .var 1]),
    .expr (.call .sml_octet_string_write [.ldPtr (.var 0) 7, .var 1])]

/-- `sml_get_profile_pack_response_free` (sml/src/sml_get_profile_pack_response.c:237-250).
```
void sml_get_profile_pack_response_free(sml_get_profile_pack_response *msg) {
  if (msg) {
    sml_octet_string_free(msg->server_id);
    sml_time_free(msg->act_time);
    sml_number_free(msg->reg_period);
    sml_tree_path_free(msg->parameter_tree_path);
    sml_sequence_free(msg->header_list);
    sml_sequence_free(msg->period_list);
    sml_octet_string_free(msg->rawdata);
    sml_signature_free(msg->profile_signature);

    free(msg);
  }
}
```
Variables: 0 `msg`. -/
def sml_get_profile_pack_response_free : FunDef where
  params := [none]
  res := none
  body := [
    .ite (.var 0) [
      .expr (.call .sml_octet_string_free [.ldPtr (.var 0) 0]),
      .expr (.call .sml_time_free [.ldPtr (.var 0) 1]),
      .expr (.call .sml_number_free [.ldPtr (.var 0) 2]),
      .expr (.call .sml_tree_path_free [.ldPtr (.var 0) 3]),
      .expr (.call .sml_sequence_free [.ldPtr (.var 0) 4]),
      .expr (.call .sml_sequence_free [.ldPtr (.var 0) 5]),
      .expr (.call .sml_octet_string_free [.ldPtr (.var 0) 6]),
      .expr (.call .sml_octet_string_free [.ldPtr (.var 0) 7]),
      .free (.var 0)] []]

/-- `sml_prof_obj_header_entry_init` (sml/src/sml_get_profile_pack_response.c:254-259).
```
sml_prof_obj_header_entry *sml_prof_obj_header_entry_init() {
  sml_prof_obj_header_entry *entry =
    (sml_prof_obj_header_entry *)malloc(sizeof(sml_prof_obj_header_entry));
  *entry = (sml_prof_obj_header_entry){.obj_name = NULL, .unit = NULL, .scaler = NULL};
  return entry;
}
```
Variables: 0 `entry`. -/
def sml_prof_obj_header_entry_init : FunDef where
  params := []
  res := none
  body := [
    .setPtr 0 (.mallocRec 3 0),
    .stRec (.var 0) [.null, .null, .null] [],
    .ret (.var 0)]

/-- `sml_prof_obj_header_entry_parse_` (sml/src/sml_get_profile_pack_response.c:261-289).
```
static void *sml_prof_obj_header_entry_parse_(sml_buffer *buf) {
  sml_prof_obj_header_entry *entry = sml_prof_obj_header_entry_init();

  if (sml_buf_get_next_type(buf) != SML_TYPE_LIST) {
    buf->error = 1;
    goto error;
  }

  if (sml_buf_get_next_length(buf) != 3) {
    buf->error = 1;
    goto error;
  }

  entry->obj_name = sml_octet_string_parse(buf);
  if (sml_buf_has_errors(buf))
    goto error;
  entry->unit = sml_unit_parse(buf);
  if (sml_buf_has_errors(buf))
    goto error;
  entry->scaler = sml_i8_parse(buf);
  if (sml_buf_has_errors(buf))
    goto error;

  return entry;
error:
  buf->error = 1;
  sml_prof_obj_header_entry_free(entry);
  return NULL;
}
```
Variables: 0 `buf`, 1 `entry`. Labels: 0 `error`. -/
def sml_prof_obj_header_entry_parse_ : FunDef where
  params := [none]
  res := none
  body := [
    .setPtr 1 (.call .sml_prof_obj_header_entry_init []),
    .ite (.bin .ne (.call .sml_buf_get_next_type [.var 0]) (.lit .i32 112)) [
      .stInt .i32 (.var 0) 2 (.lit .i32 1),
      .goto 0] [],
    .ite (.bin .ne (.call .sml_buf_get_next_length [.var 0]) (.lit .i32 3)) [
      .stInt .i32 (.var 0) 2 (.lit .i32 1),
      .goto 0] [],
    .stPtr (.var 1) 0 (.call .sml_octet_string_parse [.var 0]),
    .ite (.call .sml_buf_has_errors [.var 0]) [
      .goto 0] [],
    .stPtr (.var 1) 1 (.call .sml_number_parse [.var 0, .lit .i32 96, .lit .u64 1]),
    .ite (.call .sml_buf_has_errors [.var 0]) [
      .goto 0] [],
    .stPtr (.var 1) 2 (.call .sml_number_parse [.var 0, .lit .i32 80, .lit .u64 1]),
    .ite (.call .sml_buf_has_errors [.var 0]) [
      .goto 0] [],
    .ret (.var 1),
    .label 0,
    .stInt .i32 (.var 0) 2 (.lit .i32 1),
    .expr (.call .sml_prof_obj_header_entry_free [.var 1]),
    .ret .null]

/-- `sml_prof_obj_header_entry_parse` (sml/src/sml_get_profile_pack_response.c:291-293).
```
sml_prof_obj_header_entry *sml_prof_obj_header_entry_parse(sml_buffer *buf) {
  return sml_prof_obj_header_entry_parse_(buf);
}
```
Variables: 0 `buf`. -/
def sml_prof_obj_header_entry_parse : FunDef where
  params := [none]
  res := none
  body := [
    .ret (.call .sml_prof_obj_header_entry_parse_ [.var 0])]

/-- `sml_prof_obj_header_entry_write` (sml/src/sml_get_profile_pack_response.c:295-297).
```
void sml_prof_obj_header_entry_write(sml_prof_obj_header_entry *entry, sml_buffer *buf) {
  sml_prof_obj_header_entry_write_(entry, buf);
}
```
Variables: 0 `entry`, 1 `buf`. -/
def sml_prof_obj_header_entry_write : FunDef where
  params := [none, none]
  res := none
  body := [
    .expr (.call .sml_prof_obj_header_entry_write_ [.var 0, .var 1])]

/-- `sml_prof_obj_header_entry_free` (sml/src/sml_get_profile_pack_response.c:299-301).
```
void sml_prof_obj_header_entry_free(sml_prof_obj_header_entry *entry) {
  sml_prof_obj_header_entry_free_(entry);
}
```
Variables: 0 `entry`. -/
def sml_prof_obj_header_entry_free : FunDef where
  params := [none]
  res := none
  body := [
    .expr (.call .sml_prof_obj_header_entry_free_ [.var 0])]

/-- `sml_prof_obj_period_entry_init` (sml/src/sml_get_profile_pack_response.c:305-311).
```
sml_prof_obj_period_entry *sml_prof_obj_period_entry_init() {
  sml_prof_obj_period_entry *entry =
    (sml_prof_obj_period_entry *)malloc(sizeof(sml_prof_obj_period_entry));
  *entry = (sml_prof_obj_period_entry){
    .val_time = NULL, .status = NULL, .value_list = NULL, .period_signature = NULL};
  return entry;
}
```
Variables: 0 `entry`. -/
def sml_prof_obj_period_entry_init : FunDef where
  params := []
  res := none
  body := [
    .setPtr 0 (.mallocRec 4 0),
    .stRec (.var 0) [.null, .null, .null, .null] [],
    .ret (.var 0)]

/-- `sml_prof_obj_period_entry_parse` (sml/src/sml_get_profile_pack_response.c:313-315).
```
sml_prof_obj_period_entry *sml_prof_obj_period_entry_parse(sml_buffer *buf) {
  return sml_prof_obj_period_entry_parse_(buf);
}
```
Variables: 0 `buf`. -/
def sml_prof_obj_period_entry_parse : FunDef where
  params := [none]
  res := none
  body := [
    .ret (.call .sml_prof_obj_period_entry_parse_ [.var 0])]

/-- `sml_prof_obj_period_entry_write` (sml/src/sml_get_profile_pack_response.c:317-319).
```
void sml_prof_obj_period_entry_write(sml_prof_obj_period_entry *entry, sml_buffer *buf) {
  sml_prof_obj_period_entry_write_(entry, buf);
}
```
Variables: 0 `entry`, 1 `buf`. -/
def sml_prof_obj_period_entry_write : FunDef where
  params := [none, none]
  res := none
  body := [
    .expr (.call .sml_prof_obj_period_entry_write_ [.var 0, .var 1])]

/-- `sml_prof_obj_period_entry_free` (sml/src/sml_get_profile_pack_response.c:321-323).
```
void sml_prof_obj_period_entry_free(sml_prof_obj_period_entry *entry) {
  sml_prof_obj_period_entry_free_(entry);
}
```
Variables: 0 `entry`. -/
def sml_prof_obj_period_entry_free : FunDef where
  params := [none]
  res := none
  body := [
    .expr (.call .sml_prof_obj_period_entry_free_ [.var 0])]

/-- `sml_value_entry_init` (sml/src/sml_get_profile_pack_response.c:327-332).
```
sml_value_entry *sml_value_entry_init() {
  sml_value_entry *entry = (sml_value_entry *)malloc(sizeof(sml_value_entry));
  *entry = (sml_value_entry){.value = NULL, .value_signature = NULL};

  return entry;
}
```
Variables: 0 `entry`. -/
def sml_value_entry_init : FunDef where
  params := []
  res := none
  body := [
    .setPtr 0 (.mallocRec 2 0),
    .stRec (.var 0) [.null, .null] [],
    .ret (.var 0)]

/-- `sml_value_entry_parse` (sml/src/sml_get_profile_pack_response.c:334).
```
sml_value_entry *sml_value_entry_parse(sml_buffer *buf) { return sml_value_entry_parse_(buf); }
```
Variables: 0 `buf`. -/
def sml_value_entry_parse : FunDef where
  params := [none]
  res := none
  body := [
    .ret (.call .sml_value_entry_parse_ [.var 0])]

/-- `sml_value_entry_write` (sml/src/sml_get_profile_pack_response.c:336-338).
```
void sml_value_entry_write(sml_value_entry *entry, sml_buffer *buf) {
  sml_value_entry_write_(entry, buf);
}
```
Variables: 0 `entry`, 1 `buf`. -/
def sml_value_entry_write : FunDef where
  params := [none, none]
  res := none
  body := [
    .expr (.call .sml_value_entry_write_ [.var 0, .var 1])]

/-- `sml_value_entry_free` (sml/src/sml_get_profile_pack_response.c:340).
```
void sml_value_entry_free(sml_value_entry *entry) { sml_value_entry_free_(entry); }
```
Variables: 0 `entry`. -/
def sml_value_entry_free : FunDef where
  params := [none]
  res := none
  body := [
    .expr (.call .sml_value_entry_free_ [.var 0])]

end Sml.C
