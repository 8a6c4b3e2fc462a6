import Verif.Source.Lang

/-!
# `sml/src/sml_get_profile_pack_request.c`

Written by `tools/c2lean.py`.
-/

namespace Sml.C

/-- `sml_get_profile_pack_request_init` (sml/src/sml_get_profile_pack_request.c:25-39).
```
sml_get_profile_pack_request *sml_get_profile_pack_request_init() {
  sml_get_profile_pack_request *msg =
    (sml_get_profile_pack_request *)malloc(sizeof(sml_get_profile_pack_request));
  *msg = (sml_get_profile_pack_request){.server_id = NULL,
                      .username = NULL,
                      .password = NULL,
                      .with_rawdata = NULL,
                      .begin_time = NULL,
                      .end_time = NULL,
                      .parameter_tree_path = NULL,
                      .object_list = NULL,
                      .das_details = NULL};

  return msg;
}
```
Variables: 0 `msg`. -/
def sml_get_profile_pack_request_init : FunDef where
  params := []
  res := none
  body := [
    .setPtr 0 (.mallocRec 9 0),
    .stRec (.var 0) [.null, .null, .null, .null, .null, .null, .null, .null, .null] [],
    .ret (.var 0)]

/-- `sml_get_profile_pack_request_write` (sml/src/sml_get_profile_pack_request.c:41-67).
```
void sml_get_profile_pack_request_write(sml_get_profile_pack_request *msg, sml_buffer *buf) {
  sml_buf_set_type_and_length(buf, SML_TYPE_LIST, 9);

  sml_octet_string_write(msg->server_id, buf);
  sml_octet_string_write(msg->username, buf);
  sml_octet_string_write(msg->password, buf);
  sml_boolean_write(msg->with_rawdata, buf);
  sml_time_write(msg->begin_time, buf);
  sml_time_write(msg->end_time, buf);
  sml_tree_path_write(msg->parameter_tree_path, buf);

  if (msg->object_list) {
    int len = 1;
    sml_obj_req_entry_list *l = msg->object_list;
    for (l = msg->object_list; l->next; l = l->next) {
      len++;
    }
    sml_buf_set_type_and_length(buf, SML_TYPE_LIST, len);
    for (l = msg->object_list; l->next; l = l->next) {
      sml_obj_req_entry_write(l->object_list_entry, buf);
    }
  } else {
    sml_buf_optional_write(buf);
  }

  sml_tree_write(msg->das_details, buf);
}
```
Variables: 0 `msg`, 1 `buf`, 2 `len`, 3 `l`. -/
def sml_get_profile_pack_request_write : FunDef where
  params := [none, none]
  res := none
  body := [
    .expr (.call .sml_buf_set_type_and_length [.var 1, .lit .i32 112, .lit .i32 9]),
    .expr (.call .sml_octet_string_write [.ldPtr (.var 0) 0, .var 1]),
    .expr (.call .sml_octet_string_write [.ldPtr (.var 0) 1, .var 1]),
    .expr (.call .sml_octet_string_write [.ldPtr (.var 0) 2, .var 1]),
    .expr (.call .sml_boolean_write [.ldPtr (.var 0) 3, .var 1]),
    .expr (.call .sml_time_write [.ldPtr (.var 0) 4, .var 1]),
    .expr (.call .sml_time_write [.ldPtr (.var 0) 5, .var 1]),
    .expr (.call .sml_tree_path_write [.ldPtr (.var 0) 6, .var 1]),
    .ite (.ldPtr (.var 0) 7) [
      .set .i32 2 (.lit .i32 1),
      .setPtr 3 (.ldPtr (.var 0) 7),
      .setPtr 3 (.ldPtr (.var 0) 7),
      .loop (.ldPtr (.var 3) 1) [
        .set .i32 2 (.bin .add (.var 2) (.lit .i32 1))] [
        .setPtr 3 (.ldPtr (.var 3) 1)],
      .expr (.call .sml_buf_set_type_and_length [.var 1, .lit .i32 112, .var 2]),
      .setPtr 3 (.ldPtr (.var 0) 7),
      .loop (.ldPtr (.var 3) 1) [
        .expr (.call .sml_octet_string_write [.ldPtr (.var 3) 0, .var 1])] [
        .setPtr 3 (.ldPtr (.var 3) 1)]] [
      .expr (.call .sml_buf_optional_write [.var 1])],
    .expr (.call .sml_tree_write [.ldPtr (.var 0) 8, .var 1])]

/-- `sml_get_profile_pack_request_parse` (sml/src/sml_get_profile_pack_request.c:69-147).
```
sml_get_profile_pack_request *sml_get_profile_pack_request_parse(sml_buffer *buf) {
  sml_get_profile_pack_request *msg = sml_get_profile_pack_request_init();

  if (sml_buf_get_next_type(buf) != SML_TYPE_LIST) {
    buf->error = 1;
    goto error;
  }

  if (sml_buf_get_next_length(buf) != 9) {
    buf->error = 1;
    goto error;
  }

  msg->server_id = sml_octet_string_parse(buf);
  if (sml_buf_has_errors(buf))
    goto error;

  msg->username = sml_octet_string_parse(buf);
  if (sml_buf_has_errors(buf))
    goto error;

  msg->password = sml_octet_string_parse(buf);
  if (sml_buf_has_errors(buf))
    goto error;

  msg->with_rawdata = sml_boolean_parse(buf);
  if (sml_buf_has_errors(buf))
    goto error;

  msg->begin_time = sml_time_parse(buf);
  if (sml_buf_has_errors(buf))
    goto error;

  msg->end_time = sml_time_parse(buf);
  if (sml_buf_has_errors(buf))
    goto error;

  msg->parameter_tree_path = sml_tree_path_parse(buf);
  if (sml_buf_has_errors(buf))
    goto error;

  if (!sml_buf_optional_is_skipped(buf)) {
    if (sml_buf_get_next_type(buf) != SML_TYPE_LIST) {
      buf->error = 1;
      goto error;
    }
    int i, len = sml_buf_get_next_length(buf);
    sml_obj_req_entry_list *last = 0, *n = 0;
    for (i = len; i > 0; i--) {
      n = (sml_obj_req_entry_list *)malloc(sizeof(sml_obj_req_entry_list));
      *n = (sml_obj_req_entry_list){.object_list_entry = NULL, .next = NULL};
      n->object_list_entry = sml_obj_req_entry_parse(buf);
      if (sml_buf_has_errors(buf)) {
        if (n->object_list_entry)
          sml_octet_string_free(n->object_list_entry);
        free(n);
        goto error;
      }

      if (msg->object_list == 0) {
        msg->object_list = n;
        last = msg->object_list;
      } else {
        last->next = n;
        last = n;
      }
    }
  }

  msg->das_details = sml_tree_parse(buf);
  if (sml_buf_has_errors(buf))
    goto error;

  return msg;

error:
  sml_get_profile_pack_request_free(msg);
  return NULL;
}
```
Variables: 0 `buf`, 1 `msg`, 2 `i`, 3 `len`, 4 `last`, 5 `n`. Labels: 0 `error`. -/
def sml_get_profile_pack_request_parse : FunDef where
  params := [none]
  res := none
  body := [
    .setPtr 1 (.call .sml_get_profile_pack_request_init []),
    .ite (.bin .ne (.call .sml_buf_get_next_type [.var 0]) (.lit .i32 112)) [
      .stInt .i32 (.var 0) 2 (.lit .i32 1),
      .goto 0] [],
    .ite (.bin .ne (.call .sml_buf_get_next_length [.var 0]) (.lit .i32 9)) [
      .stInt .i32 (.var 0) 2 (.lit .i32 1),
      .goto 0] [],
    .stPtr (.var 1) 0 (.call .sml_octet_string_parse [.var 0]),
    .ite (.call .sml_buf_has_errors [.var 0]) [
      .goto 0] [],
    .stPtr (.var 1) 1 (.call .sml_octet_string_parse [.var 0]),
    .ite (.call .sml_buf_has_errors [.var 0]) [
      .goto 0] [],
    .stPtr (.var 1) 2 (.call .sml_octet_string_parse [.var 0]),
    .ite (.call .sml_buf_has_errors [.var 0]) [
      .goto 0] [],
    .stPtr (.var 1) 3 (.call .sml_boolean_parse [.var 0]),
    .ite (.call .sml_buf_has_errors [.var 0]) [
      .goto 0] [],
    .stPtr (.var 1) 4 (.call .sml_time_parse [.var 0]),
    .ite (.call .sml_buf_has_errors [.var 0]) [
      .goto 0] [],
    .stPtr (.var 1) 5 (.call .sml_time_parse [.var 0]),
    .ite (.call .sml_buf_has_errors [.var 0]) [
      .goto 0] [],
    .stPtr (.var 1) 6 (.call .sml_tree_path_parse [.var 0]),
    .ite (.call .sml_buf_has_errors [.var 0]) [
      .goto 0] [],
    .ite (.not (.call .sml_buf_optional_is_skipped [.var 0])) [
      .ite (.bin .ne (.call .sml_buf_get_next_type [.var 0]) (.lit .i32 112)) [
        .stInt .i32 (.var 0) 2 (.lit .i32 1),
        .goto 0] [],
      .set .i32 3 (.call .sml_buf_get_next_length [.var 0]),
      .setPtr 4 .null,
      .setPtr 5 .null,
      .set .i32 2 (.var 3),
      .loop (.bin .gt (.var 2) (.lit .i32 0)) [
        .setPtr 5 (.mallocRec 2 0),
        .stRec (.var 5) [.null, .null] [],
        .stPtr (.var 5) 0 (.call .sml_octet_string_parse [.var 0]),
        .ite (.call .sml_buf_has_errors [.var 0]) [
          .ite (.ldPtr (.var 5) 0) [
            .expr (.call .sml_octet_string_free [.ldPtr (.var 5) 0])] [],
          .free (.var 5),
          .goto 0] [],
        .ite (.bin .eq (.ldPtr (.var 1) 7) .null) [
          .stPtr (.var 1) 7 (.var 5),
          .setPtr 4 (.ldPtr (.var 1) 7)] [
          .stPtr (.var 4) 1 (.var 5),
          .setPtr 4 (.var 5)]] [
        .set .i32 2 (.bin .sub (.var 2) (.lit .i32 1))]] [],
    .stPtr (.var 1) 8 (.call .sml_tree_parse [.var 0]),
    .ite (.call .sml_buf_has_errors [.var 0]) [
      .goto 0] [],
    .ret (.var 1),
    .label 0,
    .expr (.call .sml_get_profile_pack_request_free [.var 1]),
    .ret .null]

/-- `sml_get_profile_pack_request_free` (sml/src/sml_get_profile_pack_request.c:149-172).
```
void sml_get_profile_pack_request_free(sml_get_profile_pack_request *msg) {
  if (msg) {
    sml_octet_string_free(msg->server_id);
    sml_octet_string_free(msg->username);
    sml_octet_string_free(msg->password);
    sml_boolean_free(msg->with_rawdata);
    sml_time_free(msg->begin_time);
    sml_time_free(msg->end_time);
    sml_tree_path_free(msg->parameter_tree_path);

    if (msg->object_list) {
      sml_obj_req_entry_list *n = 0, *d = msg->object_list;
      do {
        n = d->next;
        sml_obj_req_entry_free(d->object_list_entry);
        free(d);
        d = n;
      } while (d);
    }

    sml_tree_free(msg->das_details);
    free(msg);
  }
}
```
Variables: 0 `msg`, 1 `n`, 2 `d`. -/
def sml_get_profile_pack_request_free : FunDef where
  params := [none]
  res := none
  body := [
    .ite (.var 0) [
      .expr (.call .sml_octet_string_free [.ldPtr (.var 0) 0]),
      .expr (.call .sml_octet_string_free [.ldPtr (.var 0) 1]),
      .expr (.call .sml_octet_string_free [.ldPtr (.var 0) 2]),
      .expr (.call .sml_boolean_free [.ldPtr (.var 0) 3]),
      .expr (.call .sml_time_free [.ldPtr (.var 0) 4]),
      .expr (.call .sml_time_free [.ldPtr (.var 0) 5]),
      .expr (.call .sml_tree_path_free [.ldPtr (.var 0) 6]),
      .ite (.ldPtr (.var 0) 7) [
        .setPtr 1 .null,
        .setPtr 2 (.ldPtr (.var 0) 7),
        .doWhile [
          .setPtr 1 (.ldPtr (.var 2) 1),
          .expr (.call .sml_octet_string_free [.ldPtr (.var 2) 0]),
          .free (.var 2),
          .setPtr 2 (.var 1)] (.var 2)] [],
      .expr (.call .sml_tree_free [.ldPtr (.var 0) 8]),
      .free (.var 0)] []]

end Sml.C
