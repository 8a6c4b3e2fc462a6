import Verif.Source.Lang

/-!
# `sml/src/sml_get_profile_list_response.c`

Written by `tools/c2lean.py`.
-/

namespace Sml.C

/-- `sml_get_profile_list_response_init` (sml/src/sml_get_profile_list_response.c:23-36).
```
sml_get_profile_list_response *sml_get_profile_list_response_init() {
  sml_get_profile_list_response *msg =
    (sml_get_profile_list_response *)malloc(sizeof(sml_get_profile_list_response));
  *msg = (sml_get_profile_list_response){.server_id = NULL,
                       .act_time = NULL,
                       .reg_period = NULL,
                       .parameter_tree_path = NULL,
                       .val_time = NULL,
                       .status = NULL,
                       .period_list = NULL,
                       .rawdata = NULL,
                       .period_signature = NULL};
  return msg;
}
```
Variables: 0 `msg`. -/
def sml_get_profile_list_response_init : FunDef where
  params := []
  res := none
  body := [
    .setPtr 0 (.mallocRec 9 0),
    .stRec (.var 0) [.null, .null, .null, .null, .null, .null, .null, .null, .null] [],
    .ret (.var 0)]

/-- `sml_period_entry_parse_get` (sml/src/sml_get_profile_list_response.c:38).
```
static void *sml_period_entry_parse_(sml_buffer *buf) { return sml_period_entry_parse(buf); }
```
Variables: 0 `buf`. -/
def sml_period_entry_parse_get : FunDef where
  params := [none]
  res := none
  body := [
    .ret (.call .sml_period_entry_parse [.var 0])]

/-- `sml_period_entry_free_get` (sml/src/sml_get_profile_list_response.c:40).
```
static void sml_period_entry_free_(void *p) { sml_period_entry_free(p); }
```
Variables: 0 `p`. -/
def sml_period_entry_free_get : FunDef where
  params := [none]
  res := none
  body := [
    .expr (.call .sml_period_entry_free [.var 0])]

/-- `sml_get_profile_list_response_parse` (sml/src/sml_get_profile_list_response.c:42-97).
```
sml_get_profile_list_response *sml_get_profile_list_response_parse(sml_buffer *buf) {
  sml_get_profile_list_response *msg = sml_get_profile_list_response_init();

  if (sml_buf_get_next_type(buf) != SML_TYPE_LIST) {
    buf->error = 1;
    goto error;
  }

  if (sml_buf_get_next_length(buf) != 9) {
    buf->error = 1;
    goto error;
  }

  msg->server_id = sml_octet_string_parse(buf);
  if (sml_buf_has_errors(buf))
    goto error;

  msg->act_time = sml_time_parse(buf);
  if (sml_buf_has_errors(buf))
    goto error;

  msg->reg_period = sml_u32_parse(buf);
  if (sml_buf_has_errors(buf))
    goto error;

  msg->parameter_tree_path = sml_tree_path_parse(buf);
  if (sml_buf_has_errors(buf))
    goto error;

  msg->val_time = sml_time_parse(buf);
  if (sml_buf_has_errors(buf))
    goto error;

  msg->status = sml_u64_parse(buf);
  if (sml_buf_has_errors(buf))
    goto error;

  msg->period_list = sml_sequence_parse(buf, sml_period_entry_parse_, sml_period_entry_free_);
  if (sml_buf_has_errors(buf))
    goto error;

  msg->rawdata = sml_octet_string_parse(buf);
  if (sml_buf_has_errors(buf))
    goto error;

  msg->period_signature = sml_signature_parse(buf);
  if (sml_buf_has_errors(buf))
    goto error;

  return msg;

error:
  buf->error = 1;
  sml_get_profile_list_response_free(msg);
  return NULL;
}
```
Variables: 0 `buf`, 1 `msg`. Labels: 0 `error`. -/
def sml_get_profile_list_response_parse : FunDef where
  params := [none]
  res := none
  body := [
    .setPtr 1 (.call .sml_get_profile_list_response_init []),
    .ite (.bin .ne (.call .sml_buf_get_next_type [.var 0]) (.lit .i32 112)) [
      .stInt .i32 (.var 0) 2 (.lit .i32 1),
      .goto 0] [],
    .ite (.bin .ne (.call .sml_buf_get_next_length [.var 0]) (.lit .i32 9)) [
      .stInt .i32 (.var 0) 2 (.lit .i32 1),
      .goto 0] [],
    .stPtr (.var 1) 0 (.call .sml_octet_string_parse [.var 0]),
    .ite (.call .sml_buf_has_errors [.var 0]) [
      .goto 0] [],
    .stPtr (.var 1) 1 (.call .sml_time_parse [.var 0]),
    .ite (.call .sml_buf_has_errors [.var 0]) [
      .goto 0] [],
    .stPtr (.var 1) 2 (.call .sml_number_parse [.var 0, .lit .i32 96, .lit .u64 4]),
    .ite (.call .sml_buf_has_errors [.var 0]) [
      .goto 0] [],
    .stPtr (.var 1) 3 (.call .sml_tree_path_parse [.var 0]),
    .ite (.call .sml_buf_has_errors [.var 0]) [
      .goto 0] [],
    .stPtr (.var 1) 4 (.call .sml_time_parse [.var 0]),
    .ite (.call .sml_buf_has_errors [.var 0]) [
      .goto 0] [],
    .stPtr (.var 1) 5 (.call .sml_number_parse [.var 0, .lit .i32 96, .lit .u64 8]),
    .ite (.call .sml_buf_has_errors [.var 0]) [
      .goto 0] [],
    .stPtr (.var 1) 6 (.call .sml_sequence_parse [.var 0, .fn .sml_period_entry_parse_get, .fn .sml_period_entry_free_get]),
    .ite (.call .sml_buf_has_errors [.var 0]) [
      .goto 0] [],
    .stPtr (.var 1) 7 (.call .sml_octet_string_parse [.var 0]),
    .ite (.call .sml_buf_has_errors [.var 0]) [
      .goto 0] [],
    .stPtr (.var 1) 8 (.call .sml_octet_string_parse [.var 0]),
    .ite (.call .sml_buf_has_errors [.var 0]) [
      .goto 0] [],
    .ret (.var 1),
    .label 0,
    .stInt .i32 (.var 0) 2 (.lit .i32 1),
    .expr (.call .sml_get_profile_list_response_free [.var 1]),
    .ret .null]

/-- `sml_period_entry_write_get` (sml/src/sml_get_profile_list_response.c:99).
```
static void sml_period_entry_write_(void *p, sml_buffer *buf) { sml_period_entry_write(p, buf); }
```
Variables: 0 `p`, 1 `buf`. -/
def sml_period_entry_write_get : FunDef where
  params := [none, none]
  res := none
  body := [
    .expr (.call .sml_period_entry_write [.var 0, .var 1])]

/-- `sml_get_profile_list_response_write` (sml/src/sml_get_profile_list_response.c:101-113).
```
void sml_get_profile_list_response_write(sml_get_profile_list_response *msg, sml_buffer *buf) {
  sml_buf_set_type_and_length(buf, SML_TYPE_LIST, 9);

  sml_octet_string_write(msg->server_id, buf);
  sml_time_write(msg->act_time, buf);
  sml_u32_write(msg->reg_period, buf);
  sml_tree_path_write(msg->parameter_tree_path, buf);
  sml_time_write(msg->val_time, buf);
  sml_u64_write(msg->status, buf);
  sml_sequence_write(msg->period_list, buf, sml_period_entry_write_);
  sml_octet_string_write(msg->rawdata, buf);
  sml_signature_write(msg->period_signature, buf);
}
```
Variables: 0 `msg`, 1 `buf`. -/
def sml_get_profile_list_response_write : FunDef where
  params := [none, none]
  res := none
  body := [
    .expr (.call .sml_buf_set_type_and_length [.var 1, .lit .i32 112, .lit .i32 9]),
    .expr (.call .sml_octet_string_write [.ldPtr (.var 0) 0, .var 1]),
    .expr (.call .sml_time_write [.ldPtr (.var 0) 1, .var 1]),
    .expr (.call .sml_number_write [.ldPtr (.var 0) 2, .lit .i32 96, .lit .u64 4, .var 1]),
    .expr (.call .sml_tree_path_write [.ldPtr (.var 0) 3, .var 1]),
    .expr (.call .sml_time_write [.ldPtr (.var 0) 4, .var 1]),
    .expr (.call .sml_number_write [.ldPtr (.var 0) 5, .lit .i32 96, .lit .u64 8, .var 1]),
    .expr (.call .sml_sequence_write [.ldPtr (.var 0) 6, .var 1, .fn .sml_period_entry_write_get]),
    .expr (.call .sml_octet_string_write [.ldPtr (.var 0) 7, .var 1]),
    .expr (.call .sml_octet_string_write [.ldPtr (.var 0) 8, .var 1])]

/-- `sml_get_profile_list_response_free` (sml/src/sml_get_profile_list_response.c:115-129).
```
void sml_get_profile_list_response_free(sml_get_profile_list_response *msg) {
  if (msg) {
    sml_octet_string_free(msg->server_id);
    sml_time_free(msg->act_time);
    sml_number_free(msg->reg_period);
    sml_tree_path_free(msg->parameter_tree_path);
    sml_time_free(msg->val_time);
    sml_number_free(msg->status);
    sml_sequence_free(msg->period_list);
    sml_octet_string_free(msg->rawdata);
    sml_signature_free(msg->period_signature);

    free(msg);
  }
}
```
Variables: 0 `msg`. -/
def sml_get_profile_list_response_free : FunDef where
  params := [none]
  res := none
  body := [
    .ite (.var 0) [
      .expr (.call .sml_octet_string_free [.ldPtr (.var 0) 0]),
      .expr (.call .sml_time_free [.ldPtr (.var 0) 1]),
      .expr (.call .sml_number_free [.ldPtr (.var 0) 2]),
      .expr (.call .sml_tree_path_free [.ldPtr (.var 0) 3]),
      .expr (.call .sml_time_free [.ldPtr (.var 0) 4]),
      .expr (.call .sml_number_free [.ldPtr (.var 0) 5]),
      .expr (.call .sml_sequence_free [.ldPtr (.var 0) 6]),
      .expr (.call .sml_octet_string_free [.ldPtr (.var 0) 7]),
      .expr (.call .sml_octet_string_free [.ldPtr (.var 0) 8]),
      .free (.var 0)] []]

end Sml.C
