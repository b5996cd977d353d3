import Verif.Model.Header
import Verif.Model.Targets
import Verif.Model.Info
import Verif.Model.Extra

/-
Public methods that nothing in the package calls (they are part of the library's interface only).
-/

namespace Verif

/-- `guid()`.  Models lnk_header.py:323-324. -/
def LnkHeader.guid (h : LnkHeader) : Py Str := h.linkClsId

/-- `ControlPanelCategory.signature`.  Models target/control_panel_category.py:45-47. -/
def Target.categorySignature (t : Target) : Py Nat := unpackU 4 (slice t.rawTarget 2 6)

/-- `UsersFilesFolder.signature` (`as_item` decodes it).  Models target/users_files_folder.py:44-45. -/
def Target.usersSignature (t : Target) : Bytes := slice t.rawTarget 4 8

/-- `UsersFilesFolder.file_entry_size`.  Models target/users_files_folder.py:47-48. -/
def Target.fileEntrySize (t : Target) : Py Nat := unpackU 2 (slice t.rawTarget 8 10)

/-- `RootFolder.extension_block`: calls `self.item_id_size()`, which no class defines.
Models target/root_folder.py:77-81. -/
def Target.extensionBlock (_ : Target) : Py Unit := Py.raise .attributeError

/-- `Metadata.store_size`.  Models extra/metadata.py:308-310. -/
def Extra.storeSize (x : Extra) : Py Nat := unpackU 4 (slice x.raw 4 8)

end Verif
