import Verif.Model.Tables

/-!
# What C86 means: the functions of the module `os`
-/

namespace Verif.Members
open Verif

/-- The functions of `os` but `rename`, of `os.path`, and the methods of the dictionary `os.environ` but `get` (which is an API of the table), under their names in
`os`: Python 3.11 on Linux. -/
def otherFunctions : List Str :=
  [py"abort", py"access", py"chdir", py"chmod", py"chown", py"chroot", py"close", py"closerange", py"confstr", py"cpu_count", py"ctermid",
   py"device_encoding", py"dup", py"dup2", py"eventfd", py"eventfd_read", py"eventfd_write", py"execl", py"execle", py"execlp", py"execlpe", py"execv",
   py"execve", py"execvp", py"execvpe", py"fchdir", py"fchmod", py"fchown", py"fdatasync", py"fdopen", py"fork", py"forkpty", py"fpathconf", py"fsdecode",
   py"fsencode", py"fspath", py"fstat", py"fstatvfs", py"fsync", py"ftruncate", py"fwalk", py"get_blocking", py"get_exec_path", py"get_inheritable",
   py"get_terminal_size", py"getcwd", py"getcwdb", py"getegid", py"getenv", py"getenvb", py"geteuid", py"getgid", py"getgrouplist", py"getgroups",
   py"getloadavg", py"getlogin", py"getpgid", py"getpgrp", py"getpid", py"getppid", py"getpriority", py"getresgid", py"getresuid", py"getsid", py"getuid",
   py"getxattr", py"initgroups", py"isatty", py"kill", py"killpg", py"lchown", py"link", py"listdir", py"listxattr", py"lockf", py"login_tty", py"lseek",
   py"lstat", py"major", py"makedev", py"makedirs", py"minor", py"mkdir", py"mkfifo", py"mknod", py"nice", py"open", py"openpty", py"pathconf", py"pipe",
   py"pipe2", py"popen", py"posix_fadvise", py"posix_fallocate", py"posix_spawn", py"posix_spawnp", py"pread", py"preadv", py"putenv", py"pwrite",
   py"pwritev", py"read", py"readlink", py"readv", py"register_at_fork", py"remove", py"removedirs", py"removexattr", py"renames",
   py"replace", py"rmdir", py"scandir", py"sched_get_priority_max", py"sched_get_priority_min", py"sched_getaffinity", py"sched_getparam",
   py"sched_getscheduler", py"sched_param", py"sched_rr_get_interval", py"sched_setaffinity", py"sched_setparam", py"sched_setscheduler", py"sched_yield",
   py"sendfile", py"set_blocking", py"set_inheritable", py"setegid", py"seteuid", py"setgid", py"setgroups", py"setpgid", py"setpgrp", py"setpriority",
   py"setregid", py"setresgid", py"setresuid", py"setreuid", py"setsid", py"setuid", py"setxattr", py"spawnl", py"spawnle", py"spawnlp", py"spawnlpe",
   py"spawnv", py"spawnve", py"spawnvp", py"spawnvpe", py"splice", py"stat", py"statvfs", py"strerror", py"symlink", py"sync", py"sysconf", py"system",
   py"tcgetpgrp", py"tcsetpgrp", py"times", py"truncate", py"ttyname", py"umask", py"uname", py"unlink", py"unsetenv", py"urandom", py"utime", py"wait",
   py"wait3", py"wait4", py"waitid", py"waitpid", py"waitstatus_to_exitcode", py"walk", py"write", py"writev", py"path.abspath", py"path.basename",
   py"path.commonpath", py"path.commonprefix", py"path.dirname", py"path.exists", py"path.expanduser", py"path.expandvars", py"path.getatime",
   py"path.getctime", py"path.getmtime", py"path.getsize", py"path.isabs", py"path.isdir", py"path.isfile", py"path.islink", py"path.ismount",
   py"path.join", py"path.lexists", py"path.normcase", py"path.normpath", py"path.realpath", py"path.relpath", py"path.samefile", py"path.sameopenfile",
   py"path.samestat", py"path.split", py"path.splitdrive", py"path.splitext", py"environ.copy", py"environ.items", py"environ.keys", py"environ.pop",
   py"environ.popitem", py"environ.setdefault", py"environ.update", py"environ.values", py"environ.clear"]

/-- All of them. -/
def osFunctions : List Str := py"rename" :: otherFunctions

end Verif.Members
