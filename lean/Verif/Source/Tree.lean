import Verif.Source.Lang

/-!
# `sml/src/sml_tree.c`

Written by `tools/c2lean.py`.
-/

namespace Sml.C

/-- `sml_tree_path_init` (sml/src/sml_tree.c:25-30).
```
sml_tree_path *sml_tree_path_init() {
  sml_tree_path *tree_path = (sml_tree_path *)malloc(sizeof(sml_tree_path));
  *tree_path = (sml_tree_path){.path_entries_len = 0, .path_entries = NULL};

  return tree_path;
}
```
Variables: 0 `tree_path`. -/
def sml_tree_path_init : FunDef where
  params := []
  res := none
  body := [
    .setPtr 0 (.mallocRec 1 1),
    .stRec (.var 0) [.null] [(.i32, .lit .i32 0)],
    .ret (.var 0)]

/-- `sml_tree_path_parse` (sml/src/sml_tree.c:32-60).
```
sml_tree_path *sml_tree_path_parse(sml_buffer *buf) {
  if (sml_buf_optional_is_skipped(buf)) {
    return NULL;
  }

  sml_tree_path *tree_path = sml_tree_path_init();

  if (sml_buf_get_next_type(buf) != SML_TYPE_LIST) {
    goto error;
  }

  octet_string *s;
  int elems;
  for (elems = sml_buf_get_next_length(buf); elems > 0; elems--) {
    s = sml_octet_string_parse(buf);
    if (sml_buf_has_errors(buf))
      goto error;
    if (s) {
      sml_tree_path_add_path_entry(tree_path, s);
    }
  }

  return tree_path;

error:
  buf->error = 1;
  sml_tree_path_free(tree_path);
  return NULL;
}
```
Variables: 0 `buf`, 1 `tree_path`, 2 `s`, 3 `elems`. Labels: 0 `error`. -/
def sml_tree_path_parse : FunDef where
  params := [none]
  res := none
  body := [
    .ite (.call .sml_buf_optional_is_skipped [.var 0]) [
      .ret .null] [],
    .setPtr 1 (.call .sml_tree_path_init []),
    .ite (.bin .ne (.call .sml_buf_get_next_type [.var 0]) (.lit .i32 112)) [
      .goto 0] [],
    .set .i32 3 (.call .sml_buf_get_next_length [.var 0]),
    .loop (.bin .gt (.var 3) (.lit .i32 0)) [
      .setPtr 2 (.call .sml_octet_string_parse [.var 0]),
      .ite (.call .sml_buf_has_errors [.var 0]) [
        .goto 0] [],
      .ite (.var 2) [
        .expr (.call .sml_tree_path_add_path_entry [.var 1, .var 2])] []] [
      .set .i32 3 (.bin .sub (.var 3) (.lit .i32 1))],
    .ret (.var 1),
    .label 0,
    .stInt .i32 (.var 0) 2 (.lit .i32 1),
    .expr (.call .sml_tree_path_free [.var 1]),
    .ret .null]

/-- `sml_tree_path_add_path_entry` (sml/src/sml_tree.c:62-68).
```
void sml_tree_path_add_path_entry(sml_tree_path *tree_path, octet_string *entry) {
  tree_path->path_entries_len++;
  tree_path->path_entries = (octet_string **)realloc(
    tree_path->path_entries, sizeof(octet_string *) * tree_path->path_entries_len);

  tree_path->path_entries[tree_path->path_entries_len - 1] = entry;
}
```
Variables: 0 `tree_path`, 1 `entry`. -/
def sml_tree_path_add_path_entry : FunDef where
  params := [none, none]
  res := none
  body := [
    .stInt .i32 (.var 0) 0 (.bin .add (.ldInt .i32 (.var 0) 0) (.lit .i32 1)),
    .stPtr (.var 0) 0 (.realloc (.ldPtr (.var 0) 0) (.bin .mul (.lit .u64 8) (.ldInt .i32 (.var 0) 0))),
    .stElem (.ldPtr (.var 0) 0) (.bin .sub (.ldInt .i32 (.var 0) 0) (.lit .i32 1)) (.var 1)]

/-- `sml_tree_path_write` (sml/src/sml_tree.c:70-84).
```
void sml_tree_path_write(sml_tree_path *tree_path, sml_buffer *buf) {
  if (tree_path == 0) {
    sml_buf_optional_write(buf);
    return;
  }

  if (tree_path->path_entries && tree_path->path_entries_len > 0) {
    sml_buf_set_type_and_length(buf, SML_TYPE_LIST, tree_path->path_entries_len);

    int i;
    for (i = 0; i < tree_path->path_entries_len; i++) {
      sml_octet_string_write(tree_path->path_entries[i], buf);
    }
  }
}
```
Variables: 0 `tree_path`, 1 `buf`, 2 `i`. -/
def sml_tree_path_write : FunDef where
  params := [none, none]
  res := none
  body := [
    .ite (.bin .eq (.var 0) .null) [
      .expr (.call .sml_buf_optional_write [.var 1]),
      .retVoid] [],
    .ite (.and (.ldPtr (.var 0) 0) (.bin .gt (.ldInt .i32 (.var 0) 0) (.lit .i32 0))) [
      .expr (.call .sml_buf_set_type_and_length [.var 1, .lit .i32 112, .ldInt .i32 (.var 0) 0]),
      .set .i32 2 (.lit .i32 0),
      .loop (.bin .lt (.var 2) (.ldInt .i32 (.var 0) 0)) [
        .expr (.call .sml_octet_string_write [.elem (.ldPtr (.var 0) 0) (.var 2), .var 1])] [
        .set .i32 2 (.bin .add (.var 2) (.lit .i32 1))]] []]

/-- `sml_tree_path_free` (sml/src/sml_tree.c:86-99).
```
void sml_tree_path_free(sml_tree_path *tree_path) {
  if (tree_path) {
    if (tree_path->path_entries && tree_path->path_entries_len > 0) {
      int i;
      for (i = 0; i < tree_path->path_entries_len; i++) {
        sml_octet_string_free(tree_path->path_entries[i]);
      }

      free(tree_path->path_entries);
    }

    free(tree_path);
  }
}
```
Variables: 0 `tree_path`, 1 `i`. -/
def sml_tree_path_free : FunDef where
  params := [none]
  res := none
  body := [
    .ite (.var 0) [
      .ite (.and (.ldPtr (.var 0) 0) (.bin .gt (.ldInt .i32 (.var 0) 0) (.lit .i32 0))) [
        .set .i32 1 (.lit .i32 0),
        .loop (.bin .lt (.var 1) (.ldInt .i32 (.var 0) 0)) [
          .expr (.call .sml_octet_string_free [.elem (.ldPtr (.var 0) 0) (.var 1)])] [
          .set .i32 1 (.bin .add (.var 1) (.lit .i32 1))],
        .free (.ldPtr (.var 0) 0)] [],
      .free (.var 0)] []]

/-- `sml_tree_init` (sml/src/sml_tree.c:103-109).
```
sml_tree *sml_tree_init() {
  sml_tree *tree = (sml_tree *)malloc(sizeof(sml_tree));
  *tree = (sml_tree){
    .parameter_name = NULL, .parameter_value = NULL, .child_list = NULL, .child_list_len = 0};

  return tree;
}
```
Variables: 0 `tree`. -/
def sml_tree_init : FunDef where
  params := []
  res := none
  body := [
    .setPtr 0 (.mallocRec 3 1),
    .stRec (.var 0) [.null, .null, .null] [(.i32, .lit .i32 0)],
    .ret (.var 0)]

/-- `sml_tree_parse` (sml/src/sml_tree.c:111-162).
```
sml_tree *sml_tree_parse(sml_buffer *buf) {
  if (sml_buf_optional_is_skipped(buf)) {
    return NULL;
  }

  sml_tree *tree = sml_tree_init();

  if (sml_buf_get_next_type(buf) != SML_TYPE_LIST) {
    buf->error = 1;
    goto error;
  }

  if (sml_buf_get_next_length(buf) != 3) {
    buf->error = 1;
    goto error;
  }

  tree->parameter_name = sml_octet_string_parse(buf);
  if (sml_buf_has_errors(buf))
    goto error;

  tree->parameter_value = sml_proc_par_value_parse(buf);
  if (sml_buf_has_errors(buf))
    goto error;

  if (!sml_buf_optional_is_skipped(buf)) {
    if (sml_buf_get_next_type(buf) != SML_TYPE_LIST) {
      buf->error = 1;
      goto error;
    }

    sml_tree *c;
    int elems;
    for (elems = sml_buf_get_next_length(buf); elems > 0; elems--) {
      c = sml_tree_parse(buf);
      if (sml_buf_has_errors(buf)) {
        if (c)
          sml_tree_free(c);
        goto error;
      }
      if (c) {
        sml_tree_add_tree(tree, c);
      }
    }
  }

  return tree;

error:
  sml_tree_free(tree);
  return NULL;
}
```
Variables: 0 `buf`, 1 `tree`, 2 `c`, 3 `elems`. Labels: 0 `error`. -/
def sml_tree_parse : FunDef where
  params := [none]
  res := none
  body := [
    .ite (.call .sml_buf_optional_is_skipped [.var 0]) [
      .ret .null] [],
    .setPtr 1 (.call .sml_tree_init []),
    .ite (.bin .ne (.call .sml_buf_get_next_type [.var 0]) (.lit .i32 112)) [
      .stInt .i32 (.var 0) 2 (.lit .i32 1),
      .goto 0] [],
    .ite (.bin .ne (.call .sml_buf_get_next_length [.var 0]) (.lit .i32 3)) [
      .stInt .i32 (.var 0) 2 (.lit .i32 1),
      .goto 0] [],
    .stPtr (.var 1) 0 (.call .sml_octet_string_parse [.var 0]),
    .ite (.call .sml_buf_has_errors [.var 0]) [
      .goto 0] [],
    .stPtr (.var 1) 1 (.call .sml_proc_par_value_parse [.var 0]),
    .ite (.call .sml_buf_has_errors [.var 0]) [
      .goto 0] [],
    .ite (.not (.call .sml_buf_optional_is_skipped [.var 0])) [
      .ite (.bin .ne (.call .sml_buf_get_next_type [.var 0]) (.lit .i32 112)) [
        .stInt .i32 (.var 0) 2 (.lit .i32 1),
        .goto 0] [],
      .set .i32 3 (.call .sml_buf_get_next_length [.var 0]),
      .loop (.bin .gt (.var 3) (.lit .i32 0)) [
        .setPtr 2 (.call .sml_tree_parse [.var 0]),
        .ite (.call .sml_buf_has_errors [.var 0]) [
          .ite (.var 2) [
            .expr (.call .sml_tree_free [.var 2])] [],
          .goto 0] [],
        .ite (.var 2) [
          .expr (.call .sml_tree_add_tree [.var 1, .var 2])] []] [
        .set .i32 3 (.bin .sub (.var 3) (.lit .i32 1))]] [],
    .ret (.var 1),
    .label 0,
    .expr (.call .sml_tree_free [.var 1]),
    .ret .null]

/-- `sml_tree_add_tree` (sml/src/sml_tree.c:164-169).
```
void sml_tree_add_tree(sml_tree *base_tree, sml_tree *tree) {
  base_tree->child_list_len++;
  base_tree->child_list =
    (sml_tree **)realloc(base_tree->child_list, sizeof(sml_tree *) * base_tree->child_list_len);
  base_tree->child_list[base_tree->child_list_len - 1] = tree;
}
```
Variables: 0 `base_tree`, 1 `tree`. -/
def sml_tree_add_tree : FunDef where
  params := [none, none]
  res := none
  body := [
    .stInt .i32 (.var 0) 0 (.bin .add (.ldInt .i32 (.var 0) 0) (.lit .i32 1)),
    .stPtr (.var 0) 2 (.realloc (.ldPtr (.var 0) 2) (.bin .mul (.lit .u64 8) (.ldInt .i32 (.var 0) 0))),
    .stElem (.ldPtr (.var 0) 2) (.bin .sub (.ldInt .i32 (.var 0) 0) (.lit .i32 1)) (.var 1)]

/-- `sml_tree_free` (sml/src/sml_tree.c:171-183).
```
void sml_tree_free(sml_tree *tree) {
  if (tree) {
    sml_octet_string_free(tree->parameter_name);
    sml_proc_par_value_free(tree->parameter_value);
    int i;
    for (i = 0; i < tree->child_list_len; i++) {
      sml_tree_free(tree->child_list[i]);
    }

    free(tree->child_list);
    free(tree);
  }
}
```
Variables: 0 `tree`, 1 `i`. -/
def sml_tree_free : FunDef where
  params := [none]
  res := none
  body := [
    .ite (.var 0) [
      .expr (.call .sml_octet_string_free [.ldPtr (.var 0) 0]),
      .expr (.call .sml_proc_par_value_free [.ldPtr (.var 0) 1]),
      .set .i32 1 (.lit .i32 0),
      .loop (.bin .lt (.var 1) (.ldInt .i32 (.var 0) 0)) [
        .expr (.call .sml_tree_free [.elem (.ldPtr (.var 0) 2) (.var 1)])] [
        .set .i32 1 (.bin .add (.var 1) (.lit .i32 1))],
      .free (.ldPtr (.var 0) 2),
      .free (.var 0)] []]

/-- `sml_tree_write` (sml/src/sml_tree.c:185-206).
```
void sml_tree_write(sml_tree *tree, sml_buffer *buf) {
  if (tree == 0) {
    sml_buf_optional_write(buf);
    return;
  }

  sml_buf_set_type_and_length(buf, SML_TYPE_LIST, 3);

  sml_octet_string_write(tree->parameter_name, buf);
  sml_proc_par_value_write(tree->parameter_value, buf);

  if (tree->child_list && tree->child_list_len > 0) {
    sml_buf_set_type_and_length(buf, SML_TYPE_LIST, tree->child_list_len);

    int i;
    for (i = 0; i < tree->child_list_len; i++) {
      sml_tree_write(tree->child_list[i], buf);
    }
  } else {
    sml_buf_optional_write(buf);
  }
}
```
Variables: 0 `tree`, 1 `buf`, 2 `i`. -/
def sml_tree_write : FunDef where
  params := [none, none]
  res := none
  body := [
    .ite (.bin .eq (.var 0) .null) [
      .expr (.call .sml_buf_optional_write [.var 1]),
      .retVoid] [],
    .expr (.call .sml_buf_set_type_and_length [.var 1, .lit .i32 112, .lit .i32 3]),
    .expr (.call .sml_octet_string_write [.ldPtr (.var 0) 0, .var 1]),
    .expr (.call .sml_proc_par_value_write [.ldPtr (.var 0) 1, .var 1]),
    .ite (.and (.ldPtr (.var 0) 2) (.bin .gt (.ldInt .i32 (.var 0) 0) (.lit .i32 0))) [
      .expr (.call .sml_buf_set_type_and_length [.var 1, .lit .i32 112, .ldInt .i32 (.var 0) 0]),
      .set .i32 2 (.lit .i32 0),
      .loop (.bin .lt (.var 2) (.ldInt .i32 (.var 0) 0)) [
        .expr (.call .sml_tree_write [.elem (.ldPtr (.var 0) 2) (.var 2), .var 1])] [
        .set .i32 2 (.bin .add (.var 2) (.lit .i32 1))]] [
      .expr (.call .sml_buf_optional_write [.var 1])]]

/-- `sml_proc_par_value_init` (sml/src/sml_tree.c:210-214).
```
sml_proc_par_value *sml_proc_par_value_init() {
  sml_proc_par_value *value = (sml_proc_par_value *)malloc(sizeof(sml_proc_par_value));
  *value = (sml_proc_par_value){.tag = NULL, .data.value = NULL};
  return value;
}
```
Variables: 0 `value`. -/
def sml_proc_par_value_init : FunDef where
  params := []
  res := none
  body := [
    .setPtr 0 (.mallocRec 2 0),
    .stRec (.var 0) [.null, .null] [],
    .ret (.var 0)]

/-- `sml_proc_par_value_parse` (sml/src/sml_tree.c:216-260).
```
sml_proc_par_value *sml_proc_par_value_parse(sml_buffer *buf) {
  if (sml_buf_optional_is_skipped(buf)) {
    return NULL;
  }

  sml_proc_par_value *ppv = sml_proc_par_value_init();

  if (sml_buf_get_next_type(buf) != SML_TYPE_LIST) {
    buf->error = 1;
    goto error;
  }

  if (sml_buf_get_next_length(buf) != 2) {
    buf->error = 1;
    goto error;
  }

  ppv->tag = sml_u8_parse(buf);
  if (sml_buf_has_errors(buf) || !(ppv->tag))
    goto error;

  switch (*(ppv->tag)) {
  case SML_PROC_PAR_VALUE_TAG_VALUE:
    ppv->data.value = sml_value_parse(buf);
    break;
  case SML_PROC_PAR_VALUE_TAG_PERIOD_ENTRY:
    ppv->data.period_entry = sml_period_entry_parse(buf);
    break;
  case SML_PROC_PAR_VALUE_TAG_TUPEL_ENTRY:
    ppv->data.tupel_entry = sml_tupel_entry_parse(buf);
    break;
  case SML_PROC_PAR_VALUE_TAG_TIME:
    ppv->data.time = sml_time_parse(buf);
    break;
  default:
    buf->error = 1;
    goto error;
  }

  return ppv;

error:
  sml_proc_par_value_free(ppv);
  return NULL;
}
```
Variables: 0 `buf`, 1 `ppv`. Labels: 0 `error`. -/
def sml_proc_par_value_parse : FunDef where
  params := [none]
  res := none
  body := [
    .ite (.call .sml_buf_optional_is_skipped [.var 0]) [
      .ret .null] [],
    .setPtr 1 (.call .sml_proc_par_value_init []),
    .ite (.bin .ne (.call .sml_buf_get_next_type [.var 0]) (.lit .i32 112)) [
      .stInt .i32 (.var 0) 2 (.lit .i32 1),
      .goto 0] [],
    .ite (.bin .ne (.call .sml_buf_get_next_length [.var 0]) (.lit .i32 2)) [
      .stInt .i32 (.var 0) 2 (.lit .i32 1),
      .goto 0] [],
    .stPtr (.var 1) 0 (.call .sml_number_parse [.var 0, .lit .i32 96, .lit .u64 1]),
    .ite (.or (.call .sml_buf_has_errors [.var 0]) (.not (.ldPtr (.var 1) 0))) [
      .goto 0] [],
    .switch (.deref .u8 (.ldPtr (.var 1) 0)) [
      .case 1,
      .stPtr (.var 1) 1 (.call .sml_value_parse [.var 0]),
      .brk,
      .case 2,
      .stPtr (.var 1) 1 (.call .sml_period_entry_parse [.var 0]),
      .brk,
      .case 3,
      .stPtr (.var 1) 1 (.call .sml_tupel_entry_parse [.var 0]),
      .brk,
      .case 4,
      .stPtr (.var 1) 1 (.call .sml_time_parse [.var 0]),
      .brk,
      .dflt,
      .stInt .i32 (.var 0) 2 (.lit .i32 1),
      .goto 0],
    .ret (.var 1),
    .label 0,
    .expr (.call .sml_proc_par_value_free [.var 1]),
    .ret .null]

/-- `sml_proc_par_value_write` (sml/src/sml_tree.c:262-287).
```
void sml_proc_par_value_write(sml_proc_par_value *value, sml_buffer *buf) {
  if (value == 0) {
    sml_buf_optional_write(buf);
    return;
  }

  sml_buf_set_type_and_length(buf, SML_TYPE_LIST, 2);
  sml_u8_write(value->tag, buf);

  switch (*(value->tag)) {
  case SML_PROC_PAR_VALUE_TAG_VALUE:
    sml_value_write(value->data.value, buf);
    break;
  case SML_PROC_PAR_VALUE_TAG_PERIOD_ENTRY:
    sml_period_entry_write(value->data.period_entry, buf);
    break;
  case SML_PROC_PAR_VALUE_TAG_TUPEL_ENTRY:
    sml_tupel_entry_write(value->data.tupel_entry, buf);
    break;
  case SML_PROC_PAR_VALUE_TAG_TIME:
    sml_time_write(value->data.time, buf);
    break;
  default:
    fprintf(stderr, "libsml: error: unknown tag in %s\n", __func__);
  }
}
```
Variables: 0 `value`, 1 `buf`. -/
def sml_proc_par_value_write : FunDef where
  params := [none, none]
  res := none
  body := [
    .ite (.bin .eq (.var 0) .null) [
      .expr (.call .sml_buf_optional_write [.var 1]),
      .retVoid] [],
    .expr (.call .sml_buf_set_type_and_length [.var 1, .lit .i32 112, .lit .i32 2]),
    .expr (.call .sml_number_write [.ldPtr (.var 0) 0, .lit .i32 96, .lit .u64 1, .var 1]),
    .switch (.deref .u8 (.ldPtr (.var 0) 0)) [
      .case 1,
      .expr (.call .sml_value_write [.ldPtr (.var 0) 1, .var 1]),
      .brk,
      .case 2,
      .expr (.call .sml_period_entry_write [.ldPtr (.var 0) 1, .var 1]),
      .brk,
      .case 3,
      .expr (.call .sml_tupel_entry_write [.ldPtr (.var 0) 1, .var 1]),
      .brk,
      .case 4,
      .expr (.call .sml_time_write [.ldPtr (.var 0) 1, .var 1]),
      .brk,
      .dflt,
      .print []]]

/-- `sml_proc_par_value_free` (sml/src/sml_tree.c:289-320).
```
void sml_proc_par_value_free(sml_proc_par_value *ppv) {
  if (ppv) {
    if (ppv->tag) {
      switch (*(ppv->tag)) {
      case SML_PROC_PAR_VALUE_TAG_VALUE:
        sml_value_free(ppv->data.value);
        break;
      case SML_PROC_PAR_VALUE_TAG_PERIOD_ENTRY:
        sml_period_entry_free(ppv->data.period_entry);
        break;
      case SML_PROC_PAR_VALUE_TAG_TUPEL_ENTRY:
        sml_tupel_entry_free(ppv->data.tupel_entry);
        break;
      case SML_PROC_PAR_VALUE_TAG_TIME:
        sml_time_free(ppv->data.time);
        break;
      default:
        if (ppv->data.value) {
          free(ppv->data.value);
        }
      }
      sml_number_free(ppv->tag);
    } else {
      // Without the tag, there might be a memory leak.
      if (ppv->data.value) {
        free(ppv->data.value);
      }
    }

    free(ppv);
  }
}
```
Variables: 0 `ppv`. -/
def sml_proc_par_value_free : FunDef where
  params := [none]
  res := none
  body := [
    .ite (.var 0) [
      .ite (.ldPtr (.var 0) 0) [
        .switch (.deref .u8 (.ldPtr (.var 0) 0)) [
          .case 1,
          .expr (.call .sml_value_free [.ldPtr (.var 0) 1]),
          .brk,
          .case 2,
          .expr (.call .sml_period_entry_free [.ldPtr (.var 0) 1]),
          .brk,
          .case 3,
          .expr (.call .sml_tupel_entry_free [.ldPtr (.var 0) 1]),
          .brk,
          .case 4,
          .expr (.call .sml_time_free [.ldPtr (.var 0) 1]),
          .brk,
          .dflt,
          .ite (.ldPtr (.var 0) 1) [
            .free (.ldPtr (.var 0) 1)] []],
        .expr (.call .sml_number_free [.ldPtr (.var 0) 0])] [
        .ite (.ldPtr (.var 0) 1) [
          .free (.ldPtr (.var 0) 1)] []],
      .free (.var 0)] []]

/-- `sml_tupel_entry_init` (sml/src/sml_tree.c:324-351).
```
sml_tupel_entry *sml_tupel_entry_init() {
  sml_tupel_entry *tupel = (sml_tupel_entry *)malloc(sizeof(sml_tupel_entry));
  *tupel = (sml_tupel_entry){.server_id = NULL,
                 .sec_index = NULL,
                 .status = NULL,
                 .unit_pA = NULL,
                 .scaler_pA = NULL,
                 .value_pA = NULL,
                 .unit_R1 = NULL,
                 .scaler_R1 = NULL,
                 .value_R1 = NULL,
                 .unit_R4 = NULL,
                 .scaler_R4 = NULL,
                 .value_R4 = NULL,
                 .signature_pA_R1_R4 = NULL,
                 .unit_mA = NULL,
                 .scaler_mA = NULL,
                 .value_mA = NULL,
                 .unit_R2 = NULL,
                 .scaler_R2 = NULL,
                 .value_R2 = NULL,
                 .unit_R3 = NULL,
                 .scaler_R3 = NULL,
                 .value_R3 = NULL,
                 .signature_mA_R2_R3 = NULL};

  return tupel;
}
```
Variables: 0 `tupel`. -/
def sml_tupel_entry_init : FunDef where
  params := []
  res := none
  body := [
    .setPtr 0 (.mallocRec 23 0),
    .stRec (.var 0) [.null, .null, .null, .null, .null, .null, .null, .null, .null, .null, .null, .null, .null, .null, .null, .null, .null, .null, .null, .null, .null, .null, .null] [],
    .ret (.var 0)]

/-- `sml_tupel_entry_parse` (sml/src/sml_tree.c:353-453).
```
sml_tupel_entry *sml_tupel_entry_parse(sml_buffer *buf) {
  if (sml_buf_optional_is_skipped(buf)) {
    return NULL;
  }

  sml_tupel_entry *tupel = sml_tupel_entry_init();

  if (sml_buf_get_next_type(buf) != SML_TYPE_LIST) {
    buf->error = 1;
    goto error;
  }

  if (sml_buf_get_next_length(buf) != 23) {
    buf->error = 1;
    goto error;
  }

  tupel->server_id = sml_octet_string_parse(buf);
  if (sml_buf_has_errors(buf))
    goto error;
  tupel->sec_index = sml_time_parse(buf);
  if (sml_buf_has_errors(buf))
    goto error;
  tupel->status = sml_u64_parse(buf);
  if (sml_buf_has_errors(buf))
    goto error;

  tupel->unit_pA = sml_unit_parse(buf);
  if (sml_buf_has_errors(buf))
    goto error;
  tupel->scaler_pA = sml_i8_parse(buf);
  if (sml_buf_has_errors(buf))
    goto error;
  tupel->value_pA = sml_i64_parse(buf);
  if (sml_buf_has_errors(buf))
    goto error;

  tupel->unit_R1 = sml_unit_parse(buf);
  if (sml_buf_has_errors(buf))
    goto error;
  tupel->scaler_R1 = sml_i8_parse(buf);
  if (sml_buf_has_errors(buf))
    goto error;
  tupel->value_R1 = sml_i64_parse(buf);
  if (sml_buf_has_errors(buf))
    goto error;

  tupel->unit_R4 = sml_unit_parse(buf);
  if (sml_buf_has_errors(buf))
    goto error;
  tupel->scaler_R4 = sml_i8_parse(buf);
  if (sml_buf_has_errors(buf))
    goto error;
  tupel->value_R4 = sml_i64_parse(buf);
  if (sml_buf_has_errors(buf))
    goto error;

  tupel->signature_pA_R1_R4 = sml_octet_string_parse(buf);
  if (sml_buf_has_errors(buf))
    goto error;

  tupel->unit_mA = sml_unit_parse(buf);
  if (sml_buf_has_errors(buf))
    goto error;
  tupel->scaler_mA = sml_i8_parse(buf);
  if (sml_buf_has_errors(buf))
    goto error;
  tupel->value_mA = sml_i64_parse(buf);
  if (sml_buf_has_errors(buf))
    goto error;

  tupel->unit_R2 = sml_unit_parse(buf);
  if (sml_buf_has_errors(buf))
    goto error;
  tupel->scaler_R2 = sml_i8_parse(buf);
  if (sml_buf_has_errors(buf))
    goto error;
  tupel->value_R2 = sml_i64_parse(buf);
  if (sml_buf_has_errors(buf))
    goto error;

  tupel->unit_R3 = sml_unit_parse(buf);
  if (sml_buf_has_errors(buf))
    goto error;
  tupel->scaler_R3 = sml_i8_parse(buf);
  if (sml_buf_has_errors(buf))
    goto error;
  tupel->value_R3 = sml_i64_parse(buf);
  if (sml_buf_has_errors(buf))
    goto error;

  tupel->signature_mA_R2_R3 = sml_octet_string_parse(buf);
  if (sml_buf_has_errors(buf))
    goto error;

  return tupel;

error:
  sml_tupel_entry_free(tupel);
  return NULL;
}
```
Variables: 0 `buf`, 1 `tupel`. Labels: 0 `error`. -/
def sml_tupel_entry_parse : FunDef where
  params := [none]
  res := none
  body := [
    .ite (.call .sml_buf_optional_is_skipped [.var 0]) [
      .ret .null] [],
    .setPtr 1 (.call .sml_tupel_entry_init []),
    .ite (.bin .ne (.call .sml_buf_get_next_type [.var 0]) (.lit .i32 112)) [
      .stInt .i32 (.var 0) 2 (.lit .i32 1),
      .goto 0] [],
    .ite (.bin .ne (.call .sml_buf_get_next_length [.var 0]) (.lit .i32 23)) [
      .stInt .i32 (.var 0) 2 (.lit .i32 1),
      .goto 0] [],
    .stPtr (.var 1) 0 (.call .sml_octet_string_parse [.var 0]),
    .ite (.call .sml_buf_has_errors [.var 0]) [
      .goto 0] [],
    .stPtr (.var 1) 1 (.call .sml_time_parse [.var 0]),
    .ite (.call .sml_buf_has_errors [.var 0]) [
      .goto 0] [],
    .stPtr (.var 1) 2 (.call .sml_number_parse [.var 0, .lit .i32 96, .lit .u64 8]),
    .ite (.call .sml_buf_has_errors [.var 0]) [
      .goto 0] [],
    .stPtr (.var 1) 3 (.call .sml_number_parse [.var 0, .lit .i32 96, .lit .u64 1]),
    .ite (.call .sml_buf_has_errors [.var 0]) [
      .goto 0] [],
    .stPtr (.var 1) 4 (.call .sml_number_parse [.var 0, .lit .i32 80, .lit .u64 1]),
    .ite (.call .sml_buf_has_errors [.var 0]) [
      .goto 0] [],
    .stPtr (.var 1) 5 (.call .sml_number_parse [.var 0, .lit .i32 80, .lit .u64 8]),
    .ite (.call .sml_buf_has_errors [.var 0]) [
      .goto 0] [],
    .stPtr (.var 1) 6 (.call .sml_number_parse [.var 0, .lit .i32 96, .lit .u64 1]),
    .ite (.call .sml_buf_has_errors [.var 0]) [
      .goto 0] [],
    .stPtr (.var 1) 7 (.call .sml_number_parse [.var 0, .lit .i32 80, .lit .u64 1]),
    .ite (.call .sml_buf_has_errors [.var 0]) [
      .goto 0] [],
    .stPtr (.var 1) 8 (.call .sml_number_parse [.var 0, .lit .i32 80, .lit .u64 8]),
    .ite (.call .sml_buf_has_errors [.var 0]) [
      .goto 0] [],
    .stPtr (.var 1) 9 (.call .sml_number_parse [.var 0, .lit .i32 96, .lit .u64 1]),
    .ite (.call .sml_buf_has_errors [.var 0]) [
      .goto 0] [],
    .stPtr (.var 1) 10 (.call .sml_number_parse [.var 0, .lit .i32 80, .lit .u64 1]),
    .ite (.call .sml_buf_has_errors [.var 0]) [
      .goto 0] [],
    .stPtr (.var 1) 11 (.call .sml_number_parse [.var 0, .lit .i32 80, .lit .u64 8]),
    .ite (.call .sml_buf_has_errors [.var 0]) [
      .goto 0] [],
    .stPtr (.var 1) 12 (.call .sml_octet_string_parse [.var 0]),
    .ite (.call .sml_buf_has_errors [.var 0]) [
      .goto 0] [],
    .stPtr (.var 1) 13 (.call .sml_number_parse [.var 0, .lit .i32 96, .lit .u64 1]),
    .ite (.call .sml_buf_has_errors [.var 0]) [
      .goto 0] [],
    .stPtr (.var 1) 14 (.call .sml_number_parse [.var 0, .lit .i32 80, .lit .u64 1]),
    .ite (.call .sml_buf_has_errors [.var 0]) [
      .goto 0] [],
    .stPtr (.var 1) 15 (.call .sml_number_parse [.var 0, .lit .i32 80, .lit .u64 8]),
    .ite (.call .sml_buf_has_errors [.var 0]) [
      .goto 0] [],
    .stPtr (.var 1) 16 (.call .sml_number_parse [.var 0, .lit .i32 96, .lit .u64 1]),
    .ite (.call .sml_buf_has_errors [.var 0]) [
      .goto 0] [],
    .stPtr (.var 1) 17 (.call .sml_number_parse [.var 0, .lit .i32 80, .lit .u64 1]),
    .ite (.call .sml_buf_has_errors [.var 0]) [
      .goto 0] [],
    .stPtr (.var 1) 18 (.call .sml_number_parse [.var 0, .lit .i32 80, .lit .u64 8]),
    .ite (.call .sml_buf_has_errors [.var 0]) [
      .goto 0] [],
    .stPtr (.var 1) 19 (.call .sml_number_parse [.var 0, .lit .i32 96, .lit .u64 1]),
    .ite (.call .sml_buf_has_errors [.var 0]) [
      .goto 0] [],
    .stPtr (.var 1) 20 (.call .sml_number_parse [.var 0, .lit .i32 80, .lit .u64 1]),
    .ite (.call .sml_buf_has_errors [.var 0]) [
      .goto 0] [],
    .stPtr (.var 1) 21 (.call .sml_number_parse [.var 0, .lit .i32 80, .lit .u64 8]),
    .ite (.call .sml_buf_has_errors [.var 0]) [
      .goto 0] [],
    .stPtr (.var 1) 22 (.call .sml_octet_string_parse [.var 0]),
    .ite (.call .sml_buf_has_errors [.var 0]) [
      .goto 0] [],
    .ret (.var 1),
    .label 0,
    .expr (.call .sml_tupel_entry_free [.var 1]),
    .ret .null]

/-- `sml_tupel_entry_write` (sml/src/sml_tree.c:455-494).
```
void sml_tupel_entry_write(sml_tupel_entry *tupel, sml_buffer *buf) {
  if (tupel == 0) {
    sml_buf_optional_write(buf);
    return;
  }

  sml_buf_set_type_and_length(buf, SML_TYPE_LIST, 23);

  sml_octet_string_write(tupel->server_id, buf);
  sml_time_write(tupel->sec_index, buf);
  sml_u64_write(tupel->status, buf);

  sml_unit_write(tupel->unit_pA, buf);
  sml_i8_write(tupel->scaler_pA, buf);
  sml_i64_write(tupel->value_pA, buf);

  sml_unit_write(tupel->unit_R1, buf);
  sml_i8_write(tupel->scaler_R1, buf);
  sml_i64_write(tupel->value_R1, buf);

  sml_unit_write(tupel->unit_R4, buf);
  sml_i8_write(tupel->scaler_R4, buf);
  sml_i64_write(tupel->value_R4, buf);

  sml_octet_string_write(tupel->signature_pA_R1_R4, buf);

  sml_unit_write(tupel->unit_mA, buf);
  sml_i8_write(tupel->scaler_mA, buf);
  sml_i64_write(tupel->value_mA, buf);

  sml_unit_write(tupel->unit_R2, buf);
  sml_i8_write(tupel->scaler_R2, buf);
  sml_i64_write(tupel->value_R2, buf);

  sml_unit_write(tupel->unit_R3, buf);
  sml_i8_write(tupel->scaler_R3, buf);
  sml_i64_write(tupel->value_R3, buf);

  sml_octet_string_write(tupel->signature_mA_R2_R3, buf);
}
```
Variables: 0 `tupel`, 1 `buf`. -/
def sml_tupel_entry_write : FunDef where
  params := [none, none]
  res := none
  body := [
    .ite (.bin .eq (.var 0) .null) [
      .expr (.call .sml_buf_optional_write [.var 1]),
      .retVoid] [],
    .expr (.call .sml_buf_set_type_and_length [.var 1, .lit .i32 112, .lit .i32 23]),
    .expr (.call .sml_octet_string_write [.ldPtr (.var 0) 0, .var 1]),
    .expr (.call .sml_time_write [.ldPtr (.var 0) 1, .var 1]),
    .expr (.call .sml_number_write [.ldPtr (.var 0) 2, .lit .i32 96, .lit .u64 8, .var 1]),
    .expr (.call .sml_number_write [.ldPtr (.var 0) 3, .lit .i32 96, .lit .u64 1, .var 1]),
    .expr (.call .sml_number_write [.ldPtr (.var 0) 4, .lit .i32 80, .lit .u64 1, .var 1]),
    .expr (.call .sml_number_write [.ldPtr (.var 0) 5, .lit .i32 80, .lit .u64 8, .var 1]),
    .expr (.call .sml_number_write [.ldPtr (.var 0) 6, .lit .i32 96, .lit .u64 1, .var 1]),
    .expr (.call .sml_number_write [.ldPtr (.var 0) 7, .lit .i32 80, .lit .u64 1, .var 1]),
    .expr (.call .sml_number_write [.ldPtr (.var 0) 8, .lit .i32 80, .lit .u64 8, .var 1]),
    .expr (.call .sml_number_write [.ldPtr (.var 0) 9, .lit .i32 96, .lit .u64 1, .var 1]),
    .expr (.call .sml_number_write [.ldPtr (.var 0) 10, .lit .i32 80, .lit .u64 1, .var 1]),
    .expr (.call .sml_number_write [.ldPtr (.var 0) 11, .lit .i32 80, .lit .u64 8, .var 1]),
    .expr (.call .sml_octet_string_write [.ldPtr (.var 0) 12, .var 1]),
    .expr (.call .sml_number_write [.ldPtr (.var 0) 13, .lit .i32 96, .lit .u64 1, .var 1]),
    .expr (.call .sml_number_write [.ldPtr (.var 0) 14, .lit .i32 80, .lit .u64 1, .var 1]),
    .expr (.call .sml_number_write [.ldPtr (.var 0) 15, .lit .i32 80, .lit .u64 8, .var 1]),
    .expr (.call .sml_number_write [.ldPtr (.var 0) 16, .lit .i32 96, .lit .u64 1, .var 1]),
    .expr (.call .sml_number_write [.ldPtr (.var 0) 17, .lit .i32 80, .lit .u64 1, .var 1]),
    .expr (.call .sml_number_write [.ldPtr (.var 0) 18, .lit .i32 80, .lit .u64 8, .var 1]),
    .expr (.call .sml_number_write [.ldPtr (.var 0) 19, .lit .i32 96, .lit .u64 1, .var 1]),
    .expr (.call .sml_number_write [.ldPtr (.var 0) 20, .lit .i32 80, .lit .u64 1, .var 1]),
    .expr (.call .sml_number_write [.ldPtr (.var 0) 21, .lit .i32 80, .lit .u64 8, .var 1]),
    .expr (.call .sml_octet_string_write [.ldPtr (.var 0) 22, .var 1])]

/-- `sml_tupel_entry_free` (sml/src/sml_tree.c:496-532).
```
void sml_tupel_entry_free(sml_tupel_entry *tupel) {
  if (tupel) {
    sml_octet_string_free(tupel->server_id);
    sml_time_free(tupel->sec_index);
    sml_number_free(tupel->status);

    sml_unit_free(tupel->unit_pA);
    sml_number_free(tupel->scaler_pA);
    sml_number_free(tupel->value_pA);

    sml_unit_free(tupel->unit_R1);
    sml_number_free(tupel->scaler_R1);
    sml_number_free(tupel->value_R1);

    sml_unit_free(tupel->unit_R4);
    sml_number_free(tupel->scaler_R4);
    sml_number_free(tupel->value_R4);

    sml_octet_string_free(tupel->signature_pA_R1_R4);

    sml_unit_free(tupel->unit_mA);
    sml_number_free(tupel->scaler_mA);
    sml_number_free(tupel->value_mA);

    sml_unit_free(tupel->unit_R2);
    sml_number_free(tupel->scaler_R2);
    sml_number_free(tupel->value_R2);

    sml_unit_free(tupel->unit_R3);
    sml_number_free(tupel->scaler_R3);
    sml_number_free(tupel->value_R3);

    sml_octet_string_free(tupel->signature_mA_R2_R3);

    free(tupel);
  }
}
```
Variables: 0 `tupel`. -/
def sml_tupel_entry_free : FunDef where
  params := [none]
  res := none
  body := [
    .ite (.var 0) [
      .expr (.call .sml_octet_string_free [.ldPtr (.var 0) 0]),
      .expr (.call .sml_time_free [.ldPtr (.var 0) 1]),
      .expr (.call .sml_number_free [.ldPtr (.var 0) 2]),
      .expr (.call .sml_number_free [.ldPtr (.var 0) 3]),
      .expr (.call .sml_number_free [.ldPtr (.var 0) 4]),
      .expr (.call .sml_number_free [.ldPtr (.var 0) 5]),
      .expr (.call .sml_number_free [.ldPtr (.var 0) 6]),
      .expr (.call .sml_number_free [.ldPtr (.var 0) 7]),
      .expr (.call .sml_number_free [.ldPtr (.var 0) 8]),
      .expr (.call .sml_number_free [.ldPtr (.var 0) 9]),
      .expr (.call .sml_number_free [.ldPtr (.var 0) 10]),
      .expr (.call .sml_number_free [.ldPtr (.var 0) 11]),
      .expr (.call .sml_octet_string_free [.ldPtr (.var 0) 12]),
      .expr (.call .sml_number_free [.ldPtr (.var 0) 13]),
      .expr (.call .sml_number_free [.ldPtr (.var 0) 14]),
      .expr (.call .sml_number_free [.ldPtr (.var 0) 15]),
      .expr (.call .sml_number_free [.ldPtr (.var 0) 16]),
      .expr (.call .sml_number_free [.ldPtr (.var 0) 17]),
      .expr (.call .sml_number_free [.ldPtr (.var 0) 18]),
      .expr (.call .sml_number_free [.ldPtr (.var 0) 19]),
      .expr (.call .sml_number_free [.ldPtr (.var 0) 20]),
      .expr (.call .sml_number_free [.ldPtr (.var 0) 21]),
      .expr (.call .sml_octet_string_free [.ldPtr (.var 0) 22]),
      .free (.var 0)] []]

/-- `sml_period_entry_init` (sml/src/sml_tree.c:536-542).
```
sml_period_entry *sml_period_entry_init() {
  sml_period_entry *period = (sml_period_entry *)malloc(sizeof(sml_period_entry));
  *period = (sml_period_entry){
    .obj_name = NULL, .unit = NULL, .scaler = NULL, .value = NULL, .value_signature = NULL};

  return period;
}
```
Variables: 0 `period`. -/
def sml_period_entry_init : FunDef where
  params := []
  res := none
  body := [
    .setPtr 0 (.mallocRec 5 0),
    .stRec (.var 0) [.null, .null, .null, .null, .null] [],
    .ret (.var 0)]

/-- `sml_period_entry_parse_tree` (sml/src/sml_tree.c:544-586).
```
static void *sml_period_entry_parse_(sml_buffer *buf) {
  if (sml_buf_optional_is_skipped(buf)) {
    return NULL;
  }

  sml_period_entry *period = sml_period_entry_init();

  if (sml_buf_get_next_type(buf) != SML_TYPE_LIST) {
    buf->error = 1;
    goto error;
  }

  if (sml_buf_get_next_length(buf) != 5) {
    buf->error = 1;
    goto error;
  }

  period->obj_name = sml_octet_string_parse(buf);
  if (sml_buf_has_errors(buf))
    goto error;

  period->unit = sml_unit_parse(buf);
  if (sml_buf_has_errors(buf))
    goto error;

  period->scaler = sml_i8_parse(buf);
  if (sml_buf_has_errors(buf))
    goto error;

  period->value = sml_value_parse(buf);
  if (sml_buf_has_errors(buf))
    goto error;

  period->value_signature = sml_octet_string_parse(buf);
  if (sml_buf_has_errors(buf))
    goto error;

  return period;

error:
  sml_period_entry_free(period);
  return NULL;
}
```
Variables: 0 `buf`, 1 `period`. Labels: 0 `error`. -/
def sml_period_entry_parse_tree : FunDef where
  params := [none]
  res := none
  body := [
    .ite (.call .sml_buf_optional_is_skipped [.var 0]) [
      .ret .null] [],
    .setPtr 1 (.call .sml_period_entry_init []),
    .ite (.bin .ne (.call .sml_buf_get_next_type [.var 0]) (.lit .i32 112)) [
      .stInt .i32 (.var 0) 2 (.lit .i32 1),
      .goto 0] [],
    .ite (.bin .ne (.call .sml_buf_get_next_length [.var 0]) (.lit .i32 5)) [
      .stInt .i32 (.var 0) 2 (.lit .i32 1),
      .goto 0] [],
    .stPtr (.var 1) 0 (.call .sml_octet_string_parse [.var 0]),
    .ite (.call .sml_buf_has_errors [.var 0]) [
      .goto 0] [],
    .stPtr (.var 1) 1 (.call .sml_number_parse [.var 0, .lit .i32 96, .lit .u64 1]),
    .ite (.call .sml_buf_has_errors [.var 0]) [
      .goto 0] [],
    .stPtr (.var 1) 2 (.call .sml_number_parse [.var 0, .lit .i32 80, .lit .u64 1]),
    .ite (.call .sml_buf_has_errors [.var 0]) [
      .goto 0] [],
    .stPtr (.var 1) 3 (.call .sml_value_parse [.var 0]),
    .ite (.call .sml_buf_has_errors [.var 0]) [
      .goto 0] [],
    .stPtr (.var 1) 4 (.call .sml_octet_string_parse [.var 0]),
    .ite (.call .sml_buf_has_errors [.var 0]) [
      .goto 0] [],
    .ret (.var 1),
    .label 0,
    .expr (.call .sml_period_entry_free [.var 1]),
    .ret .null]

/-- `sml_period_entry_parse` (sml/src/sml_tree.c:588).
```
sml_period_entry *sml_period_entry_parse(sml_buffer *buf) { return sml_period_entry_parse_(buf); }
```
Variables: 0 `buf`. -/
def sml_period_entry_parse : FunDef where
  params := [none]
  res := none
  body := [
    .ret (.call .sml_period_entry_parse_tree [.var 0])]

/-- `sml_period_entry_write` (sml/src/sml_tree.c:590-603).
```
void sml_period_entry_write(sml_period_entry *period, sml_buffer *buf) {
  if (period == 0) {
    sml_buf_optional_write(buf);
    return;
  }

  sml_buf_set_type_and_length(buf, SML_TYPE_LIST, 5);

  sml_octet_string_write(period->obj_name, buf);
  sml_unit_write(period->unit, buf);
  sml_i8_write(period->scaler, buf);
  sml_value_write(period->value, buf);
  sml_octet_string_write(period->value_signature, buf);
}
```
Variables: 0 `period`, 1 `buf`. -/
def sml_period_entry_write : FunDef where
  params := [none, none]
  res := none
  body := [
    .ite (.bin .eq (.var 0) .null) [
      .expr (.call .sml_buf_optional_write [.var 1]),
      .retVoid] [],
    .expr (.call .sml_buf_set_type_and_length [.var 1, .lit .i32 112, .lit .i32 5]),
    .expr (.call .sml_octet_string_write [.ldPtr (.var 0) 0, .var 1]),
    .expr (.call .sml_number_write [.ldPtr (.var 0) 1, .lit .i32 96, .lit .u64 1, .var 1]),
    .expr (.call .sml_number_write [.ldPtr (.var 0) 2, .lit .i32 80, .lit .u64 1, .var 1]),
    .expr (.call .sml_value_write [.ldPtr (.var 0) 3, .var 1]),
    .expr (.call .sml_octet_string_write [.ldPtr (.var 0) 4, .var 1])]

/-- `sml_period_entry_free_tree` (sml/src/sml_tree.c:605-617).
```
static void sml_period_entry_free_(void *p) {
  sml_period_entry *period = p;

  if (period) {
    sml_octet_string_free(period->obj_name);
    sml_unit_free(period->unit);
    sml_number_free(period->scaler);
    sml_value_free(period->value);
    sml_octet_string_free(period->value_signature);

    free(period);
  }
}
```
Variables: 0 `p`, 1 `period`. -/
def sml_period_entry_free_tree : FunDef where
  params := [none]
  res := none
  body := [
    .setPtr 1 (.var 0),
    .ite (.var 1) [
      .expr (.call .sml_octet_string_free [.ldPtr (.var 1) 0]),
      .expr (.call .sml_number_free [.ldPtr (.var 1) 1]),
      .expr (.call .sml_number_free [.ldPtr (.var 1) 2]),
      .expr (.call .sml_value_free [.ldPtr (.var 1) 3]),
      .expr (.call .sml_octet_string_free [.ldPtr (.var 1) 4]),
      .free (.var 1)] []]

/-- `sml_period_entry_free` (sml/src/sml_tree.c:619).
```
void sml_period_entry_free(sml_period_entry *period) { sml_period_entry_free_(period); }
```
Variables: 0 `period`. -/
def sml_period_entry_free : FunDef where
  params := [none]
  res := none
  body := [
    .expr (.call .sml_period_entry_free_tree [.var 0])]

end Sml.C
